import Verif.Proofs.IeeeReal

/-! # The operations on bit patterns round correctly -/

namespace Pyogp
open Spec

theorem umag_step (n : Nat) : umag n < umag (n + 1) := by
  by_cases h : n < 2 ^ 52
  · rw [umag_small (by omega), umag_small (by omega)]
    omega
  · have e : n = (n / 2 ^ 52 - 1) * 2 ^ 52 + (2 ^ 52 + n % 2 ^ 52) := by omega
    generalize hk : n / 2 ^ 52 - 1 = k at e
    generalize hq : 2 ^ 52 + n % 2 ^ 52 = q at e
    rw [e, Nat.add_assoc, umag_normal (by omega) (by omega), umag_normal (by omega) (by omega)]
    exact Nat.mul_lt_mul_of_pos_right (by omega) (Nat.two_pow_pos _)

theorem umag_mono {a b : Nat} (h : a ≤ b) : umag a ≤ umag b := by
  induction h with
  | refl => exact Nat.le_refl _
  | step _ ih => exact Nat.le_trans ih (Nat.le_of_lt (umag_step _))

theorem umag_lt {a b : Nat} (h : a < b) : umag a < umag b := Nat.lt_of_lt_of_le (umag_step a) (umag_mono h)

/-- `n`, among the sequence `v`, is nearest to `N`, with ties going to even indices. -/
def NearestIn (v : Nat → Nat) (N n : Nat) : Prop := ∀ b, Spec.dist N (v n) ≤ Spec.dist N (v b) ∧ (Spec.dist N (v n) = Spec.dist N (v b) → v b ≠ v n → n % 2 = 0)

theorem nearestIn_round {v : Nat → Nat} (mono : ∀ {a b}, a ≤ b → v a ≤ v b) {S sh j : Nat}
    (va : ∀ q, S / 2 ^ sh ≤ q → q ≤ S / 2 ^ sh + 1 → v (j * 2 ^ 52 + q) = q * 2 ^ sh) : NearestIn v S (j * 2 ^ 52 + roundShift S sh) := by
  intro b
  have hT := Nat.two_pow_pos sh
  have hdm := Nat.div_add_mod S (2 ^ sh)
  have hml := Nat.mod_lt S hT
  have h1 := va _ (Nat.le_refl _) (by omega)
  have h2 := va (S / 2 ^ sh + 1) (by omega) (Nat.le_refl _)
  have hb : v b ≤ v (j * 2 ^ 52 + S / 2 ^ sh) ∨ v (j * 2 ^ 52 + (S / 2 ^ sh + 1)) ≤ v b := by
    rcases Nat.lt_or_ge (j * 2 ^ 52 + S / 2 ^ sh) b with h | h
    · right; exact mono (by omega)
    · left; exact mono h
  rw [h1, h2] at hb
  rw [roundShift_eq]
  rw [Nat.mul_comm] at hdm
  rw [Nat.add_mul, Nat.one_mul] at h2 hb
  by_cases hup : 2 ^ sh < 2 * (S % 2 ^ sh) ∨ (2 * (S % 2 ^ sh) = 2 ^ sh ∧ S / 2 ^ sh % 2 = 1)
  · rw [if_pos hup, h2]
    generalize v b = B at *
    generalize S / 2 ^ sh * 2 ^ sh = Q at *
    generalize S / 2 ^ sh = q at *
    generalize S % 2 ^ sh = r at *
    generalize 2 ^ sh = W at *
    clear va h1 h2 mono
    unfold Spec.dist
    omega
  · rw [if_neg hup, h1]
    generalize v b = B at *
    generalize S / 2 ^ sh * 2 ^ sh = Q at *
    generalize S / 2 ^ sh = q at *
    generalize S % 2 ^ sh = r at *
    generalize 2 ^ sh = W at *
    clear va h1 h2 mono
    unfold Spec.dist
    omega

/-- `roundBits` without the limit. -/
def rawBits (N k : Nat) : Nat :=
  if Nat.log2 N < k + 53 then roundShift N k else (Nat.log2 N - k - 52) * 2 ^ 52 + roundShift N (Nat.log2 N - 52)

theorem roundBits_raw (N k : Nat) : roundBits N k = if rawBits N k < 2047 * 2 ^ 52 then rawBits N k else 2047 * 2 ^ 52 := rfl

theorem rawBits_nearest (N k : Nat) : NearestIn (fun n => umag n * 2 ^ k) N (rawBits N k) := by
  have mono : ∀ {a b}, a ≤ b → umag a * 2 ^ k ≤ umag b * 2 ^ k := fun h => Nat.mul_le_mul_right _ (umag_mono h)
  unfold rawBits
  by_cases hl : Nat.log2 N < k + 53
  · rw [if_pos hl]
    have hq : N / 2 ^ k < 2 ^ 53 := by
      rw [Nat.div_lt_iff_lt_mul (Nat.two_pow_pos k), ← Nat.pow_add, Nat.add_comm 53]
      by_cases h0 : N = 0
      · subst h0; exact Nat.two_pow_pos _
      · exact (Nat.log2_lt h0).mp hl
    have := nearestIn_round (v := fun n => umag n * 2 ^ k) mono (S := N) (sh := k) (j := 0) (by
      intro q h1 h2
      show umag _ * _ = _
      rw [Nat.zero_mul, Nat.zero_add, umag_small (by omega)])
    rwa [Nat.zero_mul, Nat.zero_add] at this
  · rw [if_neg hl]
    have hN : N ≠ 0 := by
      rintro rfl
      simp at hl
    generalize hL : Nat.log2 N = L at *
    obtain ⟨j, rfl⟩ : ∃ j, L = k + 52 + j := ⟨L - (k + 52), by omega⟩
    have hlo : 2 ^ (k + 52 + j) ≤ N := (Nat.le_log2 hN (k := k + 52 + j)).mp (by omega)
    have hhi : N < 2 ^ (k + 52 + j + 1) := (Nat.log2_lt hN).mp (by omega)
    have e1 : k + 52 + j - k - 52 = j := by omega
    have e2 : k + 52 + j - 52 = k + j := by omega
    rw [e1, e2]
    have hq : N / 2 ^ (k + j) < 2 ^ 53 := by
      rw [Nat.div_lt_iff_lt_mul (Nat.two_pow_pos _), ← Nat.pow_add]
      rwa [show 53 + (k + j) = k + 52 + j + 1 by omega]
    have hq' : 2 ^ 52 ≤ N / 2 ^ (k + j) := by
      rw [Nat.le_div_iff_mul_le (Nat.two_pow_pos _), ← Nat.pow_add]
      rwa [show 52 + (k + j) = k + 52 + j by omega]
    exact nearestIn_round (v := fun n => umag n * 2 ^ k) mono (by
      intro q h1 h2
      show umag _ * _ = _
      rw [umag_normal (by omega) (by omega), Nat.mul_assoc, ← Nat.pow_add, Nat.add_comm j k])

/-- Overflow happens exactly from the half-way point above the largest finite double on. -/
theorem rawBits_overflow (N k : Nat) {c : Nat} (hc : c = 2044) : rawBits N k < 2047 * 2 ^ 52 ↔ N < (2 ^ 54 - 1) * 2 ^ (k + c) := by
  have hn := rawBits_nearest N k
  have v1 : umag (2047 * 2 ^ 52) * 2 ^ k = 2 ^ 54 * 2 ^ (k + c) := by
    have := umag_normal (q := 2 ^ 52) (j := c + 2) (by decide) (by decide)
    rw [show 2047 * 2 ^ 52 = (c + 2) * 2 ^ 52 + 2 ^ 52 by omega, this, Nat.mul_assoc, ← Nat.pow_add, ← Nat.pow_add, ← Nat.pow_add]
    congr 1
    omega
  have v0 : umag (2047 * 2 ^ 52 - 1) * 2 ^ k = (2 ^ 54 - 2) * 2 ^ (k + c) := by
    have := umag_normal (q := 2 ^ 53 - 1) (j := c + 1) (by decide) (by decide)
    rw [show 2047 * 2 ^ 52 - 1 = (c + 1) * 2 ^ 52 + (2 ^ 53 - 1) by omega, this, Nat.mul_assoc, ← Nat.pow_add,
      show c + 1 + k = 1 + (k + c) by omega, Nat.pow_add 2 1, ← Nat.mul_assoc]
    rfl
  obtain ⟨n1, n2⟩ := hn (2047 * 2 ^ 52)
  obtain ⟨n3, n4⟩ := hn (2047 * 2 ^ 52 - 1)
  simp only [v1, v0] at n1 n2 n3 n4
  have hW := Nat.two_pow_pos (k + c)
  have lo : rawBits N k < 2047 * 2 ^ 52 → umag (rawBits N k) * 2 ^ k ≤ (2 ^ 54 - 2) * 2 ^ (k + c) := by
    intro h; rw [← v0]; exact Nat.mul_le_mul_right _ (umag_mono (by omega))
  have hi : ¬ rawBits N k < 2047 * 2 ^ 52 → 2 ^ 54 * 2 ^ (k + c) ≤ umag (rawBits N k) * 2 ^ k := by
    intro h; rw [← v1]; exact Nat.mul_le_mul_right _ (umag_mono (by omega))
  have last : rawBits N k < 2047 * 2 ^ 52 → rawBits N k % 2 = 0 → umag (rawBits N k) * 2 ^ k < (2 ^ 54 - 2) * 2 ^ (k + c) := by
    intro h h'; rw [← v0]; exact Nat.mul_lt_mul_of_pos_right (umag_lt (by omega)) (Nat.two_pow_pos _)
  clear hn v1 v0
  generalize umag (rawBits N k) * 2 ^ k = V at *
  generalize 2 ^ (k + c) = W at *
  unfold Spec.dist at *
  generalize rawBits N k = b at *
  constructor
  · intro h
    have lo := lo h
    have last := last h
    clear hi
    by_contra hcon
    omega
  · intro h
    by_contra hcon
    have hi := hi hcon
    clear lo last
    omega

theorem int_nearest {i X Y : Int} {u w : Nat} (h1 : Spec.dist i.natAbs u ≤ Spec.dist i.natAbs w) (hX : X = if i < 0 then -(u : Int) else u)
    (hY : Y.natAbs = w) (hz : i = 0 → u = 0) :
    (X - i).natAbs ≤ (Y - i).natAbs ∧ ((X - i).natAbs = (Y - i).natAbs → Y ≠ X → Spec.dist i.natAbs u = Spec.dist i.natAbs w ∧ w ≠ u) := by
  unfold Spec.dist at *
  by_cases hi : i < 0
  · rw [if_pos hi] at hX
    omega
  · rw [if_neg hi] at hX
    omega

theorem scaled (y : F64) (i : Int) (k : Nat) {c : Nat} (hc : c = 1074) :
    |realOf y - (i : ℝ) / 2 ^ (k + c)| = ((y.units * 2 ^ k - i).natAbs : ℝ) / 2 ^ (k + c) := by
  have e : realOf y - (i : ℝ) / 2 ^ (k + c) = ((y.units * 2 ^ k - i : Int) : ℝ) / 2 ^ (k + c) := by
    rw [realOf_units y hc, pow_add]
    push_cast
    field_simp
  rw [e, abs_div, abs_of_pos (by positivity : (0 : ℝ) < 2 ^ (k + c)), Nat.cast_natAbs]
  push_cast
  rfl

theorem rawBits_zero (k : Nat) : rawBits 0 k = 0 := by
  unfold rawBits
  have h4 : Nat.log2 0 < k + 53 := by simp
  rw [if_pos h4]
  simp [roundShift]

/-- The bits of the result below the half-way point above the largest double. -/
theorem ofUnits_bits (i : Int) (k : Nat) (h : i.natAbs < (2 ^ 54 - 1) * 2 ^ (k + 2044)) :
    (F64.ofUnits i k).toNat = (if i < 0 then 1 else 0) * 2 ^ 63 + rawBits i.natAbs k ∧ rawBits i.natAbs k < 2047 * 2 ^ 52 ∧ IsFinite (F64.ofUnits i k) ∧
    (F64.ofUnits i k).units = if i < 0 then -(umag (rawBits i.natAbs k) : Int) else umag (rawBits i.natAbs k) := by
  have hlt := (rawBits_overflow i.natAbs k rfl).mpr h
  have hb : roundBits i.natAbs k = rawBits i.natAbs k := by rw [roundBits_raw, if_pos hlt]
  have hn : (F64.ofUnits i k).toNat = (if i < 0 then 1 else 0) * 2 ^ 63 + rawBits i.natAbs k := by
    unfold F64.ofUnits
    rw [hb, BitVec.toNat_ofNat, Nat.mod_eq_of_lt]
    · by_cases hi : i < 0 <;> simp [hi]
    · by_cases hi : i < 0 <;> simp only [hi, if_true, if_false] <;> omega
  have hfin : IsFinite (F64.ofUnits i k) := by
    unfold IsFinite Finite64
    rw [hn]
    by_cases hi : i < 0 <;> simp only [hi, if_true, if_false] <;> omega
  have hu : (F64.ofUnits i k).units = if i < 0 then -(umag (rawBits i.natAbs k) : Int) else umag (rawBits i.natAbs k) := by
    rw [units_eq, hn, mag64_umag (by omega)]
    unfold neg64
    generalize rawBits i.natAbs k = b at *
    by_cases hi : i < 0
    · have : (1 * 2 ^ 63 + b) / 2 ^ 63 % 2 = 1 := by omega
      simp only [hi, if_true, this, decide_true]
    · have : (0 * 2 ^ 63 + b) / 2 ^ 63 % 2 ≠ 1 := by omega
      simp only [hi, if_false, this, decide_false, Bool.false_eq_true]
  exact ⟨hn, hlt, hfin, hu⟩

/-- Below the half-way point above the largest double, the result is the nearest double. -/
theorem ofUnits_nearest (i : Int) (k : Nat) {c : Nat} (hc : c = 1074) (h : i.natAbs < (2 ^ 54 - 1) * 2 ^ (k + 2044)) :
    Nearest ((i : ℝ) / 2 ^ (k + c)) (F64.ofUnits i k) ∧ (0 ≤ i → 0 ≤ realOf (F64.ofUnits i k)) := by
  obtain ⟨hn, hlt, hfin, hu⟩ := ofUnits_bits i k h
  have hpar : (F64.ofUnits i k).toNat % 2 = rawBits i.natAbs k % 2 := by
    rw [hn]
    by_cases hi : i < 0 <;> simp only [hi, if_true, if_false] <;> omega
  refine ⟨⟨hfin, ?_⟩, ?_⟩
  · intro y _
    have hne := rawBits_nearest i.natAbs k (y.toNat % 2 ^ 63)
    have hY : (y.units * 2 ^ k).natAbs = umag (y.toNat % 2 ^ 63) * 2 ^ k := by
      have e := mag64_umag (n := y.toNat % 2 ^ 63) (Nat.mod_lt _ (by decide)) (y.toNat / 2 ^ 63)
      rw [show y.toNat / 2 ^ 63 * 2 ^ 63 + y.toNat % 2 ^ 63 = y.toNat by omega] at e
      rw [Int.natAbs_mul, units_eq, e, show ((2 : Int) ^ k).natAbs = 2 ^ k by rw [Int.natAbs_pow]; rfl]
      congr 1
      by_cases h : neg64 y.toNat = true
      · rw [if_pos h, Int.natAbs_neg, Int.natAbs_natCast]
      · rw [if_neg h, Int.natAbs_natCast]
    have key := int_nearest (X := (F64.ofUnits i k).units * 2 ^ k) hne.1 (by rw [hu]; by_cases hi : i < 0 <;> simp [hi]) hY
      (by rintro rfl; show umag (rawBits 0 k) * 2 ^ k = 0; rw [rawBits_zero, show umag 0 = 0 from rfl, Nat.zero_mul])
    rw [scaled _ i k hc, scaled _ i k hc]
    have hp : (0 : ℝ) < 2 ^ (k + c) := by positivity
    refine ⟨div_le_div_of_nonneg_right (by exact_mod_cast key.1) hp.le, ?_⟩
    intro he hne'
    rw [div_left_inj' hp.ne'] at he
    have := key.2 (by exact_mod_cast he) (by
      intro hh
      apply hne'
      have h2 : (2 : Int) ^ k ≠ 0 := by positivity
      rw [realOf_units y hc, realOf_units _ hc, Int.eq_of_mul_eq_mul_right h2 hh])
    rw [hpar]
    exact hne.2 this.1 this.2
  · intro h0
    rw [realOf_units _ hc, hu, if_neg (by omega)]
    exact div_nonneg (Int.cast_nonneg (Int.natCast_nonneg _)) (pow_nonneg (by norm_num) _)

/-- From there on it is the infinity of the same sign. -/
theorem ofUnits_overflow (i : Int) (k : Nat) {c : Nat} (hc : c = 2044) (h : (2 ^ 54 - 1) * 2 ^ (k + c) ≤ i.natAbs) :
    F64.ofUnits i k = if i < 0 then 0xfff0000000000000#64 else 0x7ff0000000000000#64 := by
  have hb : roundBits i.natAbs k = 2047 * 2 ^ 52 := by
    rw [roundBits_raw, if_neg]
    rw [rawBits_overflow i.natAbs k hc]
    exact Nat.not_lt.mpr h
  unfold F64.ofUnits
  rw [hb]
  by_cases hi : i < 0
  · rw [if_pos hi, if_pos hi]; rfl
  · rw [if_neg hi, if_neg hi]; rfl

/-! ## The operations -/

theorem limit_of_real {i : Int} {k c : Nat} (hc : c = 1074) (h : |(i : ℝ) / 2 ^ (k + c)| ≤ 2 ^ 1023) : i.natAbs < (2 ^ 54 - 1) * 2 ^ (k + 2044) := by
  obtain ⟨d, hd⟩ : ∃ d, d = 1023 := ⟨_, rfl⟩
  rw [← hd] at h
  rw [abs_div, abs_of_pos (by positivity : (0 : ℝ) < 2 ^ (k + c)), div_le_iff₀ (by positivity), ← pow_add] at h
  have h1 : (i.natAbs : ℝ) ≤ ((2 ^ (d + (k + c)) : Nat) : ℝ) := by
    rw [Nat.cast_natAbs]
    push_cast
    exact h
  have h2 : i.natAbs ≤ 2 ^ (d + (k + c)) := by exact_mod_cast h1
  obtain ⟨e, he⟩ : ∃ e, e = 2044 := ⟨_, rfl⟩
  rw [← he]
  have h3 : 2 ^ (d + (k + c)) = 2 ^ 53 * 2 ^ (k + e) := by
    rw [← Nat.pow_add]
    congr 1
    omega
  have := Nat.two_pow_pos (k + e)
  omega

theorem mul_nearest (x y : F64) (h : |realOf x * realOf y| ≤ 2 ^ 1023) : Nearest (realOf x * realOf y) (x.mul y) := by
  obtain ⟨c, hc⟩ : ∃ c, c = 1074 := ⟨_, rfl⟩
  have e : realOf x * realOf y = ((x.units * y.units : Int) : ℝ) / 2 ^ (1074 + c) := by
    rw [realOf_units x rfl, realOf_units y hc, pow_add, div_mul_div_comm]
    push_cast
    rfl
  rw [e] at h ⊢
  exact (ofUnits_nearest _ _ hc (limit_of_real hc h)).1

theorem add_nearest (x y : F64) (h : |realOf x + realOf y| ≤ 2 ^ 1023) : Nearest (realOf x + realOf y) (x.add y) := by
  obtain ⟨c, hc⟩ : ∃ c, c = 1074 := ⟨_, rfl⟩
  have e : realOf x + realOf y = ((x.units + y.units : Int) : ℝ) / 2 ^ (0 + c) := by
    rw [realOf_units x hc, realOf_units y hc, zero_add, ← add_div]
    push_cast
    rfl
  rw [e] at h ⊢
  exact (ofUnits_nearest _ _ hc (limit_of_real hc h)).1

theorem sub_nearest (x y : F64) (h : |realOf x - realOf y| ≤ 2 ^ 1023) : Nearest (realOf x - realOf y) (x.sub y) := by
  obtain ⟨c, hc⟩ : ∃ c, c = 1074 := ⟨_, rfl⟩
  have e : realOf x - realOf y = ((x.units - y.units : Int) : ℝ) / 2 ^ (0 + c) := by
    rw [realOf_units x hc, realOf_units y hc, zero_add, ← sub_div]
    push_cast
    rfl
  rw [e] at h ⊢
  exact (ofUnits_nearest _ _ hc (limit_of_real hc h)).1

/-- A sticky digit decides as the real number does: no double, and no middle between two doubles, is strictly between `s` and `s + 1`. -/
theorem sticky_nearest {x : F64} {s : Nat} {r : ℝ} {c : Nat} (hc : c = 1074)
    (h : Nearest (((2 * s + 1 : Nat) : Int) / 2 ^ (61 + c)) x) (h1 : (s : ℝ) < r * 2 ^ (c + 60)) (h2 : r * 2 ^ (c + 60) < s + 1) : Nearest r x := by
  refine ⟨h.1, ?_⟩
  intro y hy
  have h3 := (h.2 y hy).1
  have hp : (0 : ℝ) < 2 ^ c := by positivity
  have conv : ∀ (t : ℝ) (z : F64), |realOf z - t| * 2 ^ (61 + c) = |2 * ((z.units : ℝ) * 2 ^ 60) - 2 * (t * 2 ^ (c + 60))| := by
    intro t z
    rw [← abs_of_pos (by positivity : (0 : ℝ) < 2 ^ (61 + c)), ← abs_mul, realOf_units z hc]
    congr 1
    rw [sub_mul, show 61 + c = 60 + 1 + c by omega, pow_add, pow_add, pow_add 2 c]
    field_simp
  have hpos : (0 : ℝ) < 2 ^ (61 + c) := by positivity
  have h4 := mul_le_mul_of_nonneg_right h3 hpos.le
  rw [conv, conv] at h4
  have e5 : 2 * ((((2 * s + 1 : Nat) : Int) : ℝ) / 2 ^ (61 + c) * 2 ^ (c + 60)) = 2 * (s : ℝ) + 1 := by
    rw [show 61 + c = c + 60 + 1 by omega, pow_succ]
    push_cast
    field_simp
  rw [e5] at h4
  have hcx := conv r x
  have hcy := conv r y
  generalize r * 2 ^ (c + 60) = R at *
  have hX : (2 : ℝ) * ((x.units : ℝ) * 2 ^ 60) = ((4 * (x.units * 2 ^ 59) : Int) : ℝ) := by push_cast; ring
  have hY : (2 : ℝ) * ((y.units : ℝ) * 2 ^ 60) = ((4 * (y.units * 2 ^ 59) : Int) : ℝ) := by push_cast; ring
  have hxy : x.units * 2 ^ 59 = y.units * 2 ^ 59 → realOf y = realOf x := by
    intro he
    rw [realOf_units x hc, realOf_units y hc, Int.eq_of_mul_eq_mul_right (by decide) he]
  rw [hX] at h4
  rw [hY] at h4
  have hab : |4 * (x.units * 2 ^ 59) - (2 * (s : Int) + 1)| ≤ |4 * (y.units * 2 ^ 59) - (2 * (s : Int) + 1)| := by exact_mod_cast h4
  have hint : x.units * 2 ^ 59 = y.units * 2 ^ 59 ∨ (x.units * 2 ^ 59 < y.units * 2 ^ 59 ∧ (s : Int) + 1 ≤ x.units * 2 ^ 59 + y.units * 2 ^ 59) ∨
      (y.units * 2 ^ 59 < x.units * 2 ^ 59 ∧ x.units * 2 ^ 59 + y.units * 2 ^ 59 ≤ (s : Int)) := by
    rw [Int.abs_eq_natAbs, Int.abs_eq_natAbs] at hab
    omega
  rw [← mul_le_mul_iff_left₀ hpos, ← mul_left_inj' hpos.ne', hcx, hcy, hX, hY]
  clear hcx hcy hX hY h4 hab conv h3 e5
  generalize x.units * 2 ^ 59 = a at *
  generalize y.units * 2 ^ 59 = b at *
  have strict : |((4 * a : Int) : ℝ) - 2 * R| < |((4 * b : Int) : ℝ) - 2 * R| →
      |((4 * a : Int) : ℝ) - 2 * R| ≤ |((4 * b : Int) : ℝ) - 2 * R| ∧
      (|((4 * a : Int) : ℝ) - 2 * R| = |((4 * b : Int) : ℝ) - 2 * R| → realOf y ≠ realOf x → x.toNat % 2 = 0) :=
    fun hl => ⟨hl.le, fun he => absurd he hl.ne⟩
  rcases hint with he | ⟨h5, h6⟩ | ⟨h5, h6⟩
  · rw [he]
    exact ⟨le_refl _, fun _ hne => absurd (hxy he) hne⟩
  · have h5' : (a : ℝ) < b := by exact_mod_cast h5
    have h6' : (s : ℝ) + 1 ≤ a + b := by exact_mod_cast h6
    apply strict
    push_cast
    exact lt_of_lt_of_le (abs_lt.mpr ⟨by linarith, by linarith⟩) (le_abs_self _)
  · have h5' : (b : ℝ) < a := by exact_mod_cast h5
    have h6' : (a : ℝ) + b ≤ s := by exact_mod_cast h6
    apply strict
    push_cast
    exact lt_of_lt_of_le (abs_lt.mpr ⟨by linarith, by linarith⟩) (neg_le_abs _)

theorem sqrt_between (n : Nat) (h : Nat.sqrt n * Nat.sqrt n ≠ n) : (Nat.sqrt n : ℝ) < Real.sqrt n ∧ Real.sqrt n < (Nat.sqrt n : ℝ) + 1 := by
  constructor
  · rw [Real.lt_sqrt (by positivity), pow_two]
    have := Nat.sqrt_le n
    exact_mod_cast lt_of_le_of_ne this h
  · rw [Real.sqrt_lt' (by positivity), pow_two]
    exact_mod_cast Nat.lt_succ_sqrt n

/-- `math.sqrt` is the double nearest to the square root. -/
theorem sqrt_nearest (x : F64) (h0 : 0 < realOf x) (h1 : realOf x ≤ 2 ^ 1000) : Nearest (Real.sqrt (realOf x)) x.sqrt ∧ 0 ≤ realOf x.sqrt := by
  obtain ⟨c, hc⟩ : ∃ c, c = 1074 := ⟨_, rfl⟩
  have hx := realOf_units x hc
  have hu : 0 < (x.units : ℝ) := by
    rw [hx] at h0
    by_contra hn
    have : (x.units : ℝ) / 2 ^ c ≤ 0 := div_nonpos_of_nonpos_of_nonneg (by linarith) (by positivity)
    linarith
  have hu' : 0 < x.units := by exact_mod_cast hu
  have hn : ((x.units.toNat * 2 ^ (c + 120) : Nat) : ℝ) = realOf x * (2 ^ (c + 60)) ^ 2 := by
    have : ((x.units.toNat : Nat) : ℝ) = (x.units : ℝ) := by
      have : ((x.units.toNat : Nat) : Int) = x.units := Int.toNat_of_nonneg hu'.le
      exact_mod_cast congrArg (Int.cast : Int → ℝ) this
    rw [Nat.cast_mul, this, hx, ← pow_mul, show (c + 60) * 2 = c + (c + 120) by omega, pow_add 2 c (c + 120)]
    push_cast
    field_simp
  have hsq : Real.sqrt ((x.units.toNat * 2 ^ (c + 120) : Nat) : ℝ) = Real.sqrt (realOf x) * 2 ^ (c + 60) := by
    rw [hn, Real.sqrt_mul h0.le, Real.sqrt_sq (by positivity)]
  have hdef : x.sqrt = F64.ofUnits ((2 * Nat.sqrt (x.units.toNat * 2 ^ (c + 120)) + (if Nat.sqrt (x.units.toNat * 2 ^ (c + 120)) *
      Nat.sqrt (x.units.toNat * 2 ^ (c + 120)) = x.units.toNat * 2 ^ (c + 120) then 0 else 1) : Nat) : Int) 61 := by
    rw [hc]; rfl
  rw [hdef]
  have hr : Real.sqrt (realOf x) ≤ 2 ^ 1000 := by
    have h2 : (1 : ℝ) ≤ 2 ^ 1000 := one_le_pow₀ (by norm_num)
    generalize (2 : ℝ) ^ 1000 = P at *
    rw [Real.sqrt_le_left (by linarith)]
    nlinarith
  have hr0 := Real.sqrt_nonneg (realOf x)
  generalize Real.sqrt (realOf x) = r at *
  generalize x.units.toNat * 2 ^ (c + 120) = n at *
  have hlim : ∀ I : Nat, (I : ℝ) ≤ 2 * (r * 2 ^ (c + 60)) + 1 → (I : Int).natAbs < (2 ^ 54 - 1) * 2 ^ (61 + 2044) := by
    intro I hI
    apply limit_of_real hc
    have hp : (0 : ℝ) < 2 ^ (61 + c) := by positivity
    rw [abs_of_nonneg (div_nonneg (by positivity) hp.le), div_le_iff₀ hp]
    have e : (2 : ℝ) ^ (61 + c) = 2 * 2 ^ (c + 60) := by rw [show 61 + c = c + 60 + 1 by omega, pow_succ]; ring
    have h1 : (1 : ℝ) ≤ 2 ^ (c + 60) := one_le_pow₀ (by norm_num)
    obtain ⟨d, hd⟩ : ∃ d, d = 1000 := ⟨_, rfl⟩
    rw [← hd] at hr
    have h2 : (2 : ℝ) ^ d + 1 ≤ 2 ^ 1023 := by
      have a1 : (1 : ℝ) ≤ 2 ^ d := one_le_pow₀ (by norm_num)
      have a2 : (2 : ℝ) ^ 1023 = 2 ^ d * 2 ^ 23 := by rw [hd, ← pow_add]
      rw [a2]
      clear a2 hr hsq hdef hn hx hI hp e h1
      generalize (2 : ℝ) ^ d = D at *
      norm_num
      linarith
    generalize (2 : ℝ) ^ 1023 = B at *
    generalize (2 : ℝ) ^ d = D at *
    rw [e]
    generalize (2 : ℝ) ^ (c + 60) = P at *
    have hI' : ((I : Int) : ℝ) ≤ 2 * (r * P) + 1 := by exact_mod_cast hI
    have hrP : r * P ≤ D * P := mul_le_mul_of_nonneg_right hr (by linarith)
    have hBP : (D + 1) * P ≤ B * P := mul_le_mul_of_nonneg_right h2 (by linarith)
    nlinarith
  by_cases h : Nat.sqrt n * Nat.sqrt n = n
  · rw [if_pos h, Nat.add_zero]
    have h3 : r * 2 ^ (c + 60) = Nat.sqrt n := by
      rw [← hsq]
      have : (n : ℝ) = (Nat.sqrt n : ℝ) * Nat.sqrt n := by exact_mod_cast h.symm
      rw [this, Real.sqrt_mul_self (by positivity)]
    have := ofUnits_nearest ((2 * Nat.sqrt n : Nat) : Int) 61 hc (hlim _ (by rw [h3]; push_cast; linarith))
    have e : (((2 * Nat.sqrt n : Nat) : Int) : ℝ) / 2 ^ (61 + c) = r := by
      rw [div_eq_iff (by positivity), show 61 + c = c + 60 + 1 by omega, pow_succ]
      push_cast
      linarith
    rw [e] at this
    exact ⟨this.1, this.2 (by omega)⟩
  · rw [if_neg h]
    obtain ⟨h3, h4⟩ := sqrt_between n h
    rw [hsq] at h3 h4
    have := ofUnits_nearest ((2 * Nat.sqrt n + 1 : Nat) : Int) 61 hc (hlim _ (by push_cast; linarith))
    exact ⟨sticky_nearest hc this.1 h3 h4, this.2 (by omega)⟩

/-! ## Integers -/

theorem roundShift_scale (n sh j : Nat) : roundShift (n * 2 ^ j) (sh + j) = roundShift n sh := by
  have hj := Nat.two_pow_pos j
  rw [roundShift_eq, roundShift_eq, Nat.pow_add, Nat.mul_div_mul_right _ _ hj, Nat.mul_mod_mul_right, ← Nat.mul_assoc]
  simp only [Nat.mul_lt_mul_right hj, Nat.mul_right_cancel_iff hj]

theorem roundShift_multiple (n sh j : Nat) (h : sh ≤ j) : roundShift (n * 2 ^ j) sh = n * 2 ^ (j - sh) := by
  have e : n * 2 ^ j = n * 2 ^ (j - sh) * 2 ^ sh := by rw [Nat.mul_assoc, ← Nat.pow_add, Nat.sub_add_cancel h]
  have hp := Nat.two_pow_pos sh
  rw [roundShift_eq, e, Nat.mul_div_cancel _ hp, Nat.mul_mod_left, if_neg]
  omega

theorem log2_scale {n : Nat} (h : n ≠ 0) (j : Nat) : Nat.log2 (n * 2 ^ j) = Nat.log2 n + j := by
  induction j with
  | zero => simp
  | succ j ih =>
    rw [Nat.pow_succ, ← Nat.mul_assoc, Nat.mul_comm _ 2, Nat.log2_two_mul (by have := Nat.two_pow_pos j; exact Nat.mul_ne_zero h (by omega)), ih]
    omega

/-- `float(i)` is the rounding of `i`. -/
theorem intToF64_eq (i : Int) {c : Nat} (hc : c = 1074) :
    intToF64 i = if rawBits (i.natAbs * 2 ^ c) 0 < 2047 * 2 ^ 52 then some (F64.ofUnits (i * 2 ^ c) 0) else none := by
  have ha : (i * 2 ^ c).natAbs = i.natAbs * 2 ^ c := by
    rw [Int.natAbs_mul, Int.natAbs_pow]; rfl
  have hs : i * 2 ^ c < 0 ↔ i < 0 := by
    have : (0 : Int) < 2 ^ c := by positivity
    constructor
    · intro h; by_contra hn; have := Int.mul_nonneg (Int.not_lt.mp hn) this.le; omega
    · intro h; exact Int.mul_neg_of_neg_of_pos h this
  unfold intToF64 F64.ofUnits
  rw [ha, roundBits_raw]
  simp only [hs]
  by_cases h0 : i.natAbs = 0
  · rw [if_pos h0, h0, Nat.zero_mul, rawBits_zero, if_pos (by decide), if_neg (show ¬ i < 0 by omega), if_pos (by decide)]
    rfl
  · rw [if_neg h0]
    have hraw : rawBits (i.natAbs * 2 ^ c) 0 = if Nat.log2 i.natAbs ≤ 52 then
        (Nat.log2 i.natAbs + 1023) * 2 ^ 52 + (i.natAbs - 2 ^ Nat.log2 i.natAbs) * 2 ^ (52 - Nat.log2 i.natAbs)
        else (Nat.log2 i.natAbs + 1022) * 2 ^ 52 + roundShift i.natAbs (Nat.log2 i.natAbs - 52) := by
      unfold rawBits
      rw [log2_scale h0, if_neg (by omega)]
      have hle := Nat.log2_self_le h0
      generalize Nat.log2 i.natAbs = k at *
      rw [show k + c - 0 - 52 = k + 1022 by omega]
      by_cases hk : k ≤ 52
      · rw [if_pos hk, roundShift_multiple _ _ _ (by omega), show c - (k + c - 52) = 52 - k by omega, Nat.sub_mul, ← Nat.pow_add,
          show k + (52 - k) = 52 by omega]
        have : 2 ^ 52 ≤ i.natAbs * 2 ^ (52 - k) := by
          have := Nat.mul_le_mul_right (2 ^ (52 - k)) hle
          rwa [← Nat.pow_add, show k + (52 - k) = 52 by omega] at this
        generalize i.natAbs * 2 ^ (52 - k) = X at *
        omega
      · rw [if_neg hk, show k + c - 52 = k - 52 + c by omega, roundShift_scale]
    rw [← hraw]
    generalize rawBits (i.natAbs * 2 ^ c) 0 = b
    by_cases hb : b < 2047 * 2 ^ 52
    · rw [if_neg (by omega), if_pos hb, if_pos hb]
      by_cases hi : i < 0 <;> simp [hi]
    · rw [if_pos (by omega), if_neg hb]

/-- `float(i)` is the double nearest to `i`, and fails exactly from the half-way point above the largest double on. -/
theorem intToF64_spec (i : Int) :
    (∀ x, intToF64 i = some x → Nearest i x) ∧ (intToF64 i = none ↔ (2 ^ 54 - 1) * 2 ^ 970 ≤ i.natAbs) := by
  obtain ⟨c, hc⟩ : ∃ c, c = 1074 := ⟨_, rfl⟩
  rw [intToF64_eq i hc]
  have hov := rawBits_overflow (i.natAbs * 2 ^ c) 0 (c := 970 + c) (by omega)
  rw [Nat.zero_add, Nat.pow_add, ← Nat.mul_assoc, Nat.mul_lt_mul_right (Nat.two_pow_pos c)] at hov
  have ha : (i * 2 ^ c).natAbs = i.natAbs * 2 ^ c := by
    rw [Int.natAbs_mul, Int.natAbs_pow]; rfl
  constructor
  · intro x hx
    split at hx
    · rename_i hb
      cases hx
      have := (ofUnits_nearest (i * 2 ^ c) 0 hc (by
        rw [ha]
        exact (rawBits_overflow _ 0 rfl).mp hb)).1
      have e : ((i * 2 ^ c : Int) : ℝ) / 2 ^ (0 + c) = i := by
        rw [zero_add, div_eq_iff (by positivity)]
        push_cast
        rfl
      rwa [e] at this
    · cases hx
  · rw [← Nat.not_lt, ← hov]
    split
    · rename_i hb; exact ⟨fun h => (by cases h), fun h => absurd hb h⟩
    · rename_i hb; exact ⟨fun _ => hb, fun _ => rfl⟩

/-! ## The nearest double is unique -/

/-- Value of the pattern with sign `s` and magnitude `n`. -/
theorem units_pattern (x : F64) : x.units = if 2 ^ 63 ≤ x.toNat then -(umag (x.toNat % 2 ^ 63) : Int) else umag (x.toNat % 2 ^ 63) := by
  have e := mag64_umag (n := x.toNat % 2 ^ 63) (Nat.mod_lt _ (by decide)) (x.toNat / 2 ^ 63)
  rw [show x.toNat / 2 ^ 63 * 2 ^ 63 + x.toNat % 2 ^ 63 = x.toNat by omega] at e
  rw [units_eq, e]
  have hx := x.isLt
  unfold neg64
  by_cases h : 2 ^ 63 ≤ x.toNat
  · rw [if_pos h, if_pos (by simp only [decide_eq_true_eq]; omega)]
  · rw [if_neg h, if_neg (by simp only [decide_eq_true_eq]; omega)]

theorem lt_of_umag_lt {a b : Nat} (h : umag a < umag b) : a < b := by
  by_contra hn
  have := umag_mono (Nat.le_of_not_lt hn)
  omega

/-- Between two different doubles with even last bits there is a third one. -/
theorem between_even {x y : F64} (hx : IsFinite x) (hy : IsFinite y) (ex : x.toNat % 2 = 0) (ey : y.toNat % 2 = 0) (h : x.units < y.units) :
    ∃ z, IsFinite z ∧ x.units < z.units ∧ z.units < y.units := by
  have h1 := units_pattern x
  have h2 := units_pattern y
  have lx := x.isLt
  have ly := y.isLt
  have u0 : umag 0 = 0 := rfl
  unfold IsFinite Finite64 at hx hy
  by_cases hyp : 0 < y.units
  · have hyn : ¬ 2 ^ 63 ≤ y.toNat := by
      intro hc; rw [if_pos hc] at h2; omega
    rw [if_neg hyn, Nat.mod_eq_of_lt (by omega)] at h2
    have hb : y.toNat ≠ 0 := by
      intro hc; rw [hc, u0] at h2; omega
    have hz : (BitVec.ofNat 64 (y.toNat - 1)).toNat = y.toNat - 1 := by rw [BitVec.toNat_ofNat, Nat.mod_eq_of_lt (by omega)]
    have h3 := units_pattern (BitVec.ofNat 64 (y.toNat - 1))
    rw [hz, if_neg (by omega), Nat.mod_eq_of_lt (by omega)] at h3
    refine ⟨BitVec.ofNat 64 (y.toNat - 1), ?_, ?_, ?_⟩
    · unfold IsFinite Finite64; rw [hz]; omega
    · rw [h3]
      by_cases hxn : 2 ^ 63 ≤ x.toNat
      · rw [if_pos hxn] at h1
        have := umag_lt (a := 0) (b := y.toNat - 1) (by omega)
        omega
      · rw [if_neg hxn, Nat.mod_eq_of_lt (by omega)] at h1
        have h4 : x.toNat < y.toNat := lt_of_umag_lt (by omega)
        have := umag_lt (a := x.toNat) (b := y.toNat - 1) (by omega)
        omega
    · rw [h3]
      have := umag_lt (a := y.toNat - 1) (b := y.toNat) (by omega)
      omega
  · have hxn : 2 ^ 63 ≤ x.toNat := by
      by_contra hc; rw [if_neg hc] at h1; omega
    rw [if_pos hxn] at h1
    have hb : x.toNat % 2 ^ 63 ≠ 0 := by
      intro hc; rw [hc, u0] at h1; omega
    have hz : (BitVec.ofNat 64 (x.toNat - 1)).toNat = x.toNat - 1 := by rw [BitVec.toNat_ofNat, Nat.mod_eq_of_lt (by omega)]
    have h3 := units_pattern (BitVec.ofNat 64 (x.toNat - 1))
    rw [hz, if_pos (by omega)] at h3
    have hm : (x.toNat - 1) % 2 ^ 63 = x.toNat % 2 ^ 63 - 1 := by omega
    rw [hm] at h3
    refine ⟨BitVec.ofNat 64 (x.toNat - 1), ?_, ?_, ?_⟩
    · unfold IsFinite Finite64; rw [hz]; omega
    · rw [h3]
      have := umag_lt (a := x.toNat % 2 ^ 63 - 1) (b := x.toNat % 2 ^ 63) (by omega)
      omega
    · rw [h3]
      have hyu : y.units = -(umag (y.toNat % 2 ^ 63) : Int) := by
        by_cases hyn : 2 ^ 63 ≤ y.toNat
        · rw [if_pos hyn] at h2; exact h2
        · rw [if_neg hyn] at h2; omega
      have h4 : y.toNat % 2 ^ 63 < x.toNat % 2 ^ 63 := lt_of_umag_lt (by omega)
      have := umag_lt (a := y.toNat % 2 ^ 63) (b := x.toNat % 2 ^ 63 - 1) (by omega)
      omega

/-- There is only one nearest double (`0.0` and `-0.0` are the same number). -/
theorem nearest_unique {r : ℝ} {x y : F64} (h1 : Nearest r x) (h2 : Nearest r y) : realOf x = realOf y := by
  have key : ∀ {x y : F64}, Nearest r x → Nearest r y → ¬ realOf x < realOf y := by
    intro x y h1 h2 hlt
    obtain ⟨c, hc⟩ : ∃ c, c = 1074 := ⟨_, rfl⟩
    have hp : (0 : ℝ) < 2 ^ c := by positivity
    have a1 := h1.2 y h2.1
    have a2 := h2.2 x h1.1
    have he := le_antisymm a1.1 a2.1
    have ex := a1.2 he hlt.ne'
    have ey := a2.2 he.symm hlt.ne
    have hu : x.units < y.units := by
      rw [realOf_units x hc, realOf_units y hc, div_lt_div_iff_of_pos_right hp] at hlt
      exact_mod_cast hlt
    obtain ⟨z, hz, z1, z2⟩ := between_even h1.1 h2.1 ex ey hu
    have z1' : realOf x < realOf z := by
      rw [realOf_units x hc, realOf_units z hc, div_lt_div_iff_of_pos_right hp]
      exact_mod_cast z1
    have z2' : realOf z < realOf y := by
      rw [realOf_units y hc, realOf_units z hc, div_lt_div_iff_of_pos_right hp]
      exact_mod_cast z2
    have b1 := (h1.2 z hz).1
    have b2 := (h2.2 z hz).1
    rcases abs_cases (realOf x - r) with ⟨e1, _⟩ | ⟨e1, _⟩ <;> rcases abs_cases (realOf y - r) with ⟨e2, _⟩ | ⟨e2, _⟩ <;>
      rcases abs_cases (realOf z - r) with ⟨e3, _⟩ | ⟨e3, _⟩ <;> rw [e1, e2] at he <;> rw [e1, e3] at b1 <;> rw [e2, e3] at b2 <;> linarith
  rcases lt_trichotomy (realOf x) (realOf y) with h | h | h
  · exact absurd h (key h1 h2)
  · exact h
  · exact absurd h (key h2 h1)

end Pyogp
