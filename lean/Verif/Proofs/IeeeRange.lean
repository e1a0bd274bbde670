import Verif.Proofs.IeeeRound
import Verif.Proofs.Helpers

/-! # `packed_u16_to_float` and `packed_u8_to_float` on doubles -/

namespace Pyogp
open Spec

theorem nearest_mono {r s : ℝ} {x y : F64} (h : r ≤ s) (hx : Nearest r x) (hy : Nearest s y) : realOf x ≤ realOf y := by
  rcases eq_or_lt_of_le h with rfl | hlt
  · exact (nearest_unique hx hy).le
  · by_contra hn
    have hn := not_le.mp hn
    have a := (hx.2 y hy.1).1
    have b := (hy.2 x hx.1).1
    rcases abs_cases (realOf x - r) with ⟨e1, _⟩ | ⟨e1, _⟩ <;> rcases abs_cases (realOf y - r) with ⟨e2, _⟩ | ⟨e2, _⟩ <;>
      rcases abs_cases (realOf x - s) with ⟨e3, _⟩ | ⟨e3, _⟩ <;> rcases abs_cases (realOf y - s) with ⟨e4, _⟩ | ⟨e4, _⟩ <;>
      rw [e1, e2] at a <;> rw [e3, e4] at b <;> linarith

/-- The rounding error: relative `2^-53`, or half a unit. -/
theorem rawBits_rel (N k : Nat) : Spec.dist N (umag (rawBits N k) * 2 ^ k) * 2 ^ 53 ≤ N + 2 ^ (52 + k) := by
  unfold rawBits
  by_cases hl : Nat.log2 N < k + 53
  · rw [if_pos hl]
    have hq : N / 2 ^ k < 2 ^ 53 := by
      rw [Nat.div_lt_iff_lt_mul (Nat.two_pow_pos k), ← Nat.pow_add, Nat.add_comm 53]
      by_cases h0 : N = 0
      · subst h0; exact Nat.two_pow_pos _
      · exact (Nat.log2_lt h0).mp hl
    have hb := roundShift_le hq
    have hc := roundShift_close N k
    rw [umag_small hb, Nat.pow_add]
    generalize roundShift N k * 2 ^ k = V at *
    generalize 2 ^ k = P at *
    unfold Spec.dist
    omega
  · rw [if_neg hl]
    have hN : N ≠ 0 := by
      rintro rfl
      simp at hl
    generalize hL : Nat.log2 N = L at *
    obtain ⟨j, rfl⟩ : ∃ j, L = k + 52 + j := ⟨L - (k + 52), by omega⟩
    have hlo : 2 ^ (k + 52 + j) ≤ N := (Nat.le_log2 hN (k := k + 52 + j)).mp (by omega)
    have hhi : N < 2 ^ (k + 52 + j + 1) := (Nat.log2_lt hN).mp (by omega)
    rw [show k + 52 + j - k - 52 = j by omega, show k + 52 + j - 52 = k + j by omega]
    have hq : N / 2 ^ (k + j) < 2 ^ 53 := by
      rw [Nat.div_lt_iff_lt_mul (Nat.two_pow_pos _), ← Nat.pow_add]
      rwa [show 53 + (k + j) = k + 52 + j + 1 by omega]
    have hq' : 2 ^ 52 ≤ N / 2 ^ (k + j) := by
      rw [Nat.le_div_iff_mul_le (Nat.two_pow_pos _), ← Nat.pow_add]
      rwa [show 52 + (k + j) = k + 52 + j by omega]
    have hb := roundShift_le hq
    have hg := roundShift_ge (S := N) (sh := k + j)
    have hc := roundShift_close N (k + j)
    rw [umag_normal (by omega) hb, Nat.mul_assoc, ← Nat.pow_add, Nat.add_comm j k]
    rw [show k + 52 + j = 52 + (k + j) by omega, Nat.pow_add] at hlo
    generalize roundShift N (k + j) * 2 ^ (k + j) = V at *
    generalize 2 ^ (k + j) = P at *
    generalize 2 ^ (52 + k) = Q at *
    unfold Spec.dist
    omega

theorem ofUnits_err (i : Int) (k : Nat) {c : Nat} (hc : c = 1074) (h : i.natAbs < (2 ^ 54 - 1) * 2 ^ (k + 2044)) :
    |realOf (F64.ofUnits i k) - (i : ℝ) / 2 ^ (k + c)| ≤ 1 / 2 ^ 53 * |(i : ℝ) / 2 ^ (k + c)| + 1 / 2 ^ (c + 1) := by
  obtain ⟨-, -, -, hu⟩ := ofUnits_bits i k h
  have hr := rawBits_rel i.natAbs k
  rw [scaled _ i k hc]
  have hd : ((F64.ofUnits i k).units * 2 ^ k - i).natAbs = Spec.dist i.natAbs (umag (rawBits i.natAbs k) * 2 ^ k) := by
    have hX : (F64.ofUnits i k).units * 2 ^ k = if i < 0 then -((umag (rawBits i.natAbs k) * 2 ^ k : Nat) : Int) else ((umag (rawBits i.natAbs k) * 2 ^ k : Nat) : Int) := by
      rw [hu]; by_cases hi : i < 0 <;> simp [hi]
    rw [hX]
    generalize umag (rawBits i.natAbs k) * 2 ^ k = V
    unfold Spec.dist
    by_cases hi : i < 0
    · rw [if_pos hi]; omega
    · rw [if_neg hi]; omega
  rw [hd]
  generalize Spec.dist i.natAbs (umag (rawBits i.natAbs k) * 2 ^ k) = D at *
  have hp : (0 : ℝ) < 2 ^ (k + c) := by positivity
  have hr' : (D : ℝ) * 2 ^ 53 ≤ |(i : ℝ)| + 2 ^ (52 + k) := by
    have : ((D * 2 ^ 53 : Nat) : ℝ) ≤ ((i.natAbs + 2 ^ (52 + k) : Nat) : ℝ) := by exact_mod_cast hr
    push_cast at this
    rw [Nat.cast_natAbs] at this
    push_cast at this
    norm_num at this ⊢
    exact this
  rw [abs_div, abs_of_pos hp, div_le_iff₀ hp, add_mul]
  have e1 : 1 / 2 ^ 53 * (|(i : ℝ)| / 2 ^ (k + c)) * 2 ^ (k + c) = |(i : ℝ)| / 2 ^ 53 := by field_simp
  have e2 : (1 : ℝ) / 2 ^ (c + 1) * 2 ^ (k + c) = 2 ^ (52 + k) / 2 ^ 53 := by
    rw [pow_succ, pow_add, pow_add]
    field_simp
  rw [e1, e2, ← add_div, le_div_iff₀ (by positivity)]
  exact hr'

theorem mul_err (x y : F64) (h : |realOf x * realOf y| ≤ 2 ^ 1023) {c : Nat} (hc : c = 1074) :
    |realOf (x.mul y) - realOf x * realOf y| ≤ 1 / 2 ^ 53 * |realOf x * realOf y| + 1 / 2 ^ (c + 1) := by
  have e : realOf x * realOf y = ((x.units * y.units : Int) : ℝ) / 2 ^ (1074 + c) := by
    rw [realOf_units x rfl, realOf_units y hc, pow_add, div_mul_div_comm]
    push_cast
    rfl
  rw [e] at h ⊢
  exact ofUnits_err _ _ hc (limit_of_real hc h)

theorem add_err (x y : F64) (h : |realOf x + realOf y| ≤ 2 ^ 1023) {c : Nat} (hc : c = 1074) :
    |realOf (x.add y) - (realOf x + realOf y)| ≤ 1 / 2 ^ 53 * |realOf x + realOf y| + 1 / 2 ^ (c + 1) := by
  have e : realOf x + realOf y = ((x.units + y.units : Int) : ℝ) / 2 ^ (0 + c) := by
    rw [realOf_units x hc, realOf_units y hc, zero_add, ← add_div]
    push_cast
    rfl
  rw [e] at h ⊢
  exact ofUnits_err _ _ hc (limit_of_real hc h)

theorem sub_err (x y : F64) (h : |realOf x - realOf y| ≤ 2 ^ 1023) {c : Nat} (hc : c = 1074) :
    |realOf (x.sub y) - (realOf x - realOf y)| ≤ 1 / 2 ^ 53 * |realOf x - realOf y| + 1 / 2 ^ (c + 1) := by
  have e : realOf x - realOf y = ((x.units - y.units : Int) : ℝ) / 2 ^ (0 + c) := by
    rw [realOf_units x hc, realOf_units y hc, zero_add, ← sub_div]
    push_cast
    rfl
  rw [e] at h ⊢
  exact ofUnits_err _ _ hc (limit_of_real hc h)

/-- Integers below `2^53` are doubles. -/
theorem int_exact (u : Nat) (hu : u < 2 ^ 53) : ∃ y, IsFinite y ∧ realOf y = u := by
  obtain ⟨c, hc⟩ : ∃ c, c = 1074 := ⟨_, rfl⟩
  by_cases h0 : u = 0
  · refine ⟨0, by unfold IsFinite Finite64; decide, ?_⟩
    have h : mag64 (0 : F64).toNat = 0 := by decide +kernel
    unfold realOf
    rw [h, h0]
    simp
  · have hlo := Nat.log2_self_le h0
    have hhi : u < 2 ^ (Nat.log2 u + 1) := Nat.lt_log2_self
    have hk : Nat.log2 u < 53 := (Nat.log2_lt h0).mpr hu
    generalize Nat.log2 u = k at *
    have q1 : 2 ^ 52 ≤ u * 2 ^ (52 - k) := by
      have := Nat.mul_le_mul_right (2 ^ (52 - k)) hlo
      rwa [← Nat.pow_add, show k + (52 - k) = 52 by omega] at this
    have q2 : u * 2 ^ (52 - k) < 2 ^ 53 := by
      have := Nat.mul_lt_mul_of_pos_right hhi (Nat.two_pow_pos (52 - k))
      rwa [← Nat.pow_add, show k + 1 + (52 - k) = 53 by omega] at this
    have hN : (BitVec.ofNat 64 ((k + 1022) * 2 ^ 52 + u * 2 ^ (52 - k))).toNat = (k + 1022) * 2 ^ 52 + u * 2 ^ (52 - k) := by
      rw [BitVec.toNat_ofNat, Nat.mod_eq_of_lt]
      generalize u * 2 ^ (52 - k) = q at *
      omega
    refine ⟨BitVec.ofNat 64 ((k + 1022) * 2 ^ 52 + u * 2 ^ (52 - k)), ?_, ?_⟩
    · unfold IsFinite Finite64
      rw [hN]
      generalize u * 2 ^ (52 - k) = q at *
      omega
    · rw [realOf_units _ hc, units_pattern, hN]
      have hm := umag_normal (j := k + 1022) q1 q2.le
      have e : u * 2 ^ (52 - k) * 2 ^ (k + 1022) = u * 2 ^ c := by
        rw [Nat.mul_assoc, ← Nat.pow_add]
        congr 2
        omega
      rw [e] at hm
      generalize u * 2 ^ (52 - k) = q at *
      rw [if_neg (by omega), Nat.mod_eq_of_lt (by omega), hm]
      push_cast
      field_simp

theorem intToF64_exact (u : Nat) (hu : u < 2 ^ 53) : ∃ x, intToF64 u = some x ∧ IsFinite x ∧ realOf x = u := by
  cases hx : intToF64 u with
  | none =>
    exfalso
    have h1 : (2 ^ 54 - 1) * 2 ^ 970 ≤ u := by
      have := (intToF64_spec u).2.mp hx
      rwa [Int.natAbs_natCast] at this
    have h2 : (1 : Nat) ≤ 2 ^ 970 := Nat.one_le_two_pow
    generalize 2 ^ 970 = P at *
    omega
  | some x =>
    have hn := (intToF64_spec u).1 x hx
    obtain ⟨y, hy, he⟩ := int_exact u hu
    have := (hn.2 y hy).1
    rw [he] at this
    push_cast at this
    rw [sub_self, abs_zero] at this
    have := abs_nonpos_iff.mp this
    exact ⟨x, rfl, hn.1, by linarith⟩

/-- A certificate that a double is the nearest one: the number is between the middles to its neighbours. -/
theorem nearest_cert {n p q : Nat} (hn0 : 0 < n) (hn : n + 1 < 2047 * 2 ^ 52) (hq : 0 < q) {c : Nat} (hc : c = 1074)
    (h1 : (umag (n - 1) + umag n) * q < 2 * p * 2 ^ c) (h2 : 2 * p * 2 ^ c < (umag n + umag (n + 1)) * q) : Nearest ((p : ℝ) / q) (BitVec.ofNat 64 n) := by
  have hN : (BitVec.ofNat 64 n).toNat = n := by rw [BitVec.toNat_ofNat, Nat.mod_eq_of_lt (by omega)]
  have hu : F64.units (BitVec.ofNat 64 n) = umag n := by
    rw [units_pattern, hN, if_neg (by omega), Nat.mod_eq_of_lt (by omega)]
  have hc0 : (0 : ℝ) < 2 ^ c := by positivity
  have hq0 : (0 : ℝ) < q := by exact_mod_cast hq
  have h1' : ((umag (n - 1) : ℝ) + umag n) / 2 ^ c < 2 * (p / q) := by
    have : (((umag (n - 1) + umag n) * q : Nat) : ℝ) < ((2 * p * 2 ^ c : Nat) : ℝ) := by exact_mod_cast h1
    push_cast at this
    rw [div_lt_iff₀ hc0, ← mul_lt_mul_iff_left₀ hq0]
    refine this.trans_eq ?_
    field_simp
  have h2' : 2 * ((p : ℝ) / q) < ((umag n : ℝ) + umag (n + 1)) / 2 ^ c := by
    have : ((2 * p * 2 ^ c : Nat) : ℝ) < (((umag n + umag (n + 1)) * q : Nat) : ℝ) := by exact_mod_cast h2
    push_cast at this
    rw [lt_div_iff₀ hc0, ← mul_lt_mul_iff_left₀ hq0]
    refine lt_of_eq_of_lt ?_ this
    field_simp
  have hx : realOf (BitVec.ofNat 64 n) = (umag n : ℝ) / 2 ^ c := by rw [realOf_units _ hc, hu]; push_cast; rfl
  rw [add_div] at h1' h2'
  refine ⟨by unfold IsFinite Finite64; rw [hN]; omega, ?_⟩
  intro y _
  have key : realOf y = realOf (BitVec.ofNat 64 n) ∨ |realOf (BitVec.ofNat 64 n) - p / q| < |realOf y - p / q| := by
    have hy := realOf_units y hc
    have hyu := units_pattern y
    have cases3 : y.units = umag n ∨ y.units ≤ umag (n - 1) ∨ (umag (n + 1) : Int) ≤ y.units := by
      by_cases hneg : 2 ^ 63 ≤ y.toNat
      · rw [if_pos hneg] at hyu; right; left; omega
      · rw [if_neg hneg] at hyu
        rcases Nat.lt_trichotomy (y.toNat % 2 ^ 63) n with h | h | h
        · right; left; rw [hyu]; exact_mod_cast umag_mono (by omega)
        · left; rw [hyu, h]
        · right; right; rw [hyu]; exact_mod_cast umag_mono (by omega)
    rw [hx, hy]
    have hlo : (umag (n - 1) : ℝ) / 2 ^ c < umag n / 2 ^ c := by
      rw [div_lt_div_iff_of_pos_right hc0]; exact_mod_cast umag_lt (by omega)
    have hhi : (umag n : ℝ) / 2 ^ c < umag (n + 1) / 2 ^ c := by
      rw [div_lt_div_iff_of_pos_right hc0]; exact_mod_cast umag_lt (by omega)
    rcases cases3 with h | h | h
    · left; rw [h]; push_cast; rfl
    · right
      have : (y.units : ℝ) / 2 ^ c ≤ umag (n - 1) / 2 ^ c := by
        rw [div_le_div_iff_of_pos_right hc0]; exact_mod_cast h
      exact lt_of_lt_of_le (abs_lt.mpr ⟨by linarith, by linarith⟩) (neg_le_abs _)
    · right
      have : (umag (n + 1) : ℝ) / 2 ^ c ≤ y.units / 2 ^ c := by
        rw [div_le_div_iff_of_pos_right hc0]; exact_mod_cast h
      exact lt_of_lt_of_le (abs_lt.mpr ⟨by linarith, by linarith⟩) (le_abs_self _)
  rcases key with h | h
  · rw [h]; exact ⟨le_rfl, fun _ hne => absurd rfl hne⟩
  · exact ⟨h.le, fun he => absurd he h.ne⟩

theorem oo16_nearest : Nearest ((1 : ℝ) / 65535) oo16 := by
  have := nearest_cert (n := 0x3ef0001000100010) (p := 1) (q := 65535) (by decide) (by decide) (by decide) (c := 1074) rfl (by decide +kernel) (by decide +kernel)
  exact_mod_cast this

theorem oo8_nearest : Nearest ((1 : ℝ) / 255) oo8 := by
  have := nearest_cert (n := 0x3f70101010101010) (p := 1) (q := 255) (by decide) (by decide) (by decide) (c := 1074) rfl (by decide +kernel) (by decide +kernel)
  exact_mod_cast this

/-- The error analysis of `rangeF64`. -/
theorem range_error (ε η max u oo L U p d v w : ℝ) (h0 : 0 ≤ ε) (h1 : ε ≤ 1 / 64) (hη0 : 0 ≤ η) (hη : η ≤ ε * ε) (hmax : 1 ≤ max) (hu0 : 0 ≤ u) (hu : u ≤ max)
    (hLU : L ≤ U) (hoo : |oo - 1 / max| ≤ ε * (1 / max)) (hp : |p - u * oo| ≤ ε * |u * oo| + η) (hd : |d - (U - L)| ≤ ε * |U - L| + η)
    (hv : |v - p * d| ≤ ε * |p * d| + η) (hw : |w - (v + L)| ≤ ε * |v + L| + η) :
    |w - (L + u / max * (U - L))| ≤ 7 * ε * (|L| + |U|) + 4 * η := by
  have hmax0 : 0 < max := by linarith
  have hΔ0 : 0 ≤ U - L := by linarith
  have hΔS : U - L ≤ |L| + |U| := by
    have := neg_abs_le L; have := le_abs_self U; linarith
  rw [abs_of_nonneg hΔ0] at hd
  generalize hΔ : U - L = Δ at *
  have ha0 : 0 ≤ u / max := by positivity
  have ha1 : u / max ≤ 1 := (div_le_one hmax0).mpr hu
  have hi0 : 0 < 1 / max := by positivity
  have hi1 : 1 / max ≤ 1 := (div_le_one hmax0).mpr hmax
  have hptS : |L + u / max * Δ| ≤ |L| + |U| := by
    have e1 : 0 ≤ u / max * Δ := by positivity
    have e2 : u / max * Δ ≤ Δ := mul_le_of_le_one_left hΔ0 ha1
    rw [abs_le]
    have := neg_abs_le L; have := le_abs_self L; have := le_abs_self U; have := abs_nonneg U; have := abs_nonneg L
    constructor <;> linarith
  have hS0 : 0 ≤ |L| + |U| := by positivity
  generalize |L| + |U| = S at *
  have hεη : η ≤ ε := hη.trans (by nlinarith)
  -- u * oo
  have x1 : |u * oo - u / max| ≤ ε * (u / max) := by
    have := mul_le_mul_of_nonneg_left hoo hu0
    rw [← abs_of_nonneg hu0, ← abs_mul, abs_of_nonneg hu0, mul_sub, mul_one_div] at this
    refine this.trans (le_of_eq ?_)
    rw [mul_left_comm, mul_one_div]
  generalize u / max = a at *
  have hoo' := abs_le.mp hoo
  generalize 1 / max = im at *
  have x1' := abs_le.mp x1
  generalize u * oo = b at *
  have hb0 : 0 ≤ b := by nlinarith
  rw [abs_of_nonneg hb0] at hp
  have hp' := abs_le.mp hp
  have pa : |p - a| ≤ 33 / 16 * ε := by
    have t1 : ε * a ≤ ε := mul_le_of_le_one_right h0 ha1
    have t2 : ε * b ≤ ε * (1 + ε) := mul_le_mul_of_nonneg_left (by linarith) h0
    have t3 : ε * ε ≤ 1 / 64 * ε := mul_le_mul_of_nonneg_right h1 h0
    have t4 : ε * (1 + ε) = ε + ε * ε := by ring
    rw [abs_le]
    constructor <;> linarith
  have pabs : |p| ≤ 1 + 33 / 16 * ε := by
    have := abs_add_le (p - a) a
    rw [sub_add_cancel, abs_of_nonneg ha0] at this
    linarith
  have dabs : |d| ≤ (1 + ε) * Δ + η := by
    have := abs_add_le (d - Δ) Δ
    rw [sub_add_cancel, abs_of_nonneg hΔ0] at this
    linarith
  have hεΔ : 0 ≤ ε * Δ := mul_nonneg h0 hΔ0
  have hεS : ε * Δ ≤ ε * S := mul_le_mul_of_nonneg_left hΔS h0
  have hεη' : ε * η ≤ 1 / 64 * η := mul_le_mul_of_nonneg_right h1 hη0
  have hεεΔ : ε * (ε * Δ) ≤ 1 / 64 * (ε * Δ) := mul_le_mul_of_nonneg_right h1 hεΔ
  have pd : |p * d - a * Δ| ≤ 13 / 4 * (ε * Δ) + 17 / 16 * η := by
    have e : p * d - a * Δ = (p - a) * d + a * (d - Δ) := by ring
    rw [e]
    refine (abs_add_le _ _).trans ?_
    rw [abs_mul, abs_mul, abs_of_nonneg ha0]
    have t1 := mul_le_mul pa dabs (abs_nonneg _) (by linarith)
    have t2 : a * |d - Δ| ≤ ε * Δ + η := (mul_le_of_le_one_left (abs_nonneg _) ha1).trans hd
    have t3 : 33 / 16 * ε * ((1 + ε) * Δ + η) = 33 / 16 * (ε * Δ) + 33 / 16 * (ε * (ε * Δ)) + 33 / 16 * (ε * η) := by ring
    linarith
  have pdabs : |p * d| ≤ Δ + 13 / 4 * (ε * Δ) + 17 / 16 * η := by
    have := abs_add_le (p * d - a * Δ) (a * Δ)
    rw [sub_add_cancel, abs_of_nonneg (mul_nonneg ha0 hΔ0)] at this
    have t : a * Δ ≤ Δ := mul_le_of_le_one_left hΔ0 ha1
    linarith
  have va : |v - a * Δ| ≤ 35 / 8 * (ε * Δ) + 17 / 8 * η := by
    have e := abs_sub_le v (p * d) (a * Δ)
    have t := mul_le_mul_of_nonneg_left pdabs h0
    have t3 : ε * (Δ + 13 / 4 * (ε * Δ) + 17 / 16 * η) = ε * Δ + 13 / 4 * (ε * (ε * Δ)) + 17 / 16 * (ε * η) := by ring
    linarith
  · have vL : |v + L - (L + a * Δ)| ≤ 35 / 8 * (ε * Δ) + 17 / 8 * η := by
      rw [show v + L - (L + a * Δ) = v - a * Δ by ring]; exact va
    generalize v + L = V at *
    generalize L + a * Δ = pt at *
    have e := abs_sub_le w V pt
    have Vabs : |V| ≤ S + 35 / 8 * (ε * Δ) + 17 / 8 * η := by
      have := abs_add_le (V - pt) pt
      rw [sub_add_cancel] at this
      linarith
    have t := mul_le_mul_of_nonneg_left Vabs h0
    have t3 : ε * (S + 35 / 8 * (ε * Δ) + 17 / 8 * η) = ε * S + 35 / 8 * (ε * (ε * Δ)) + 17 / 8 * (ε * η) := by ring
    have hεS0 : 0 ≤ ε * S := mul_nonneg h0 hS0
    rw [mul_assoc]
    linarith

/-- The error analysis of the size of a step. -/
theorem step_error (ε η max oo D d m : ℝ) (h0 : 0 ≤ ε) (h1 : ε ≤ 1 / 64) (hη0 : 0 ≤ η) (hmax : 1 ≤ max) (hD : 0 ≤ D)
    (hoo : |oo - 1 / max| ≤ ε * (1 / max)) (hd : |d - D| ≤ ε * |D| + η) (hm : |m - d * oo| ≤ ε * |d * oo| + η) :
    |m - D / max| ≤ 5 * ε * (D / max) + 3 * η := by
  have hmax0 : 0 < max := by linarith
  have hi0 : 0 < 1 / max := by positivity
  have hi1 : 1 / max ≤ 1 := (div_le_one hmax0).mpr hmax
  rw [show D / max = D * (1 / max) by ring]
  generalize 1 / max = im at *
  rw [abs_of_nonneg hD] at hd
  have oabs : |oo| ≤ (1 + ε) * im := by
    have := abs_add_le (oo - im) im
    rw [sub_add_cancel, abs_of_pos hi0] at this
    linarith
  have hDi : 0 ≤ D * im := mul_nonneg hD hi0.le
  have hεDi : 0 ≤ ε * (D * im) := mul_nonneg h0 hDi
  have hεεDi : ε * (ε * (D * im)) ≤ 1 / 64 * (ε * (D * im)) := mul_le_mul_of_nonneg_right h1 hεDi
  have hεη : ε * η ≤ 1 / 64 * η := mul_le_mul_of_nonneg_right h1 hη0
  have hεη0 : 0 ≤ ε * η := mul_nonneg h0 hη0
  -- the product
  have hx : |d * oo - D * im| ≤ 17 / 8 * (ε * (D * im)) + 33 / 32 * η := by
    have e : d * oo - D * im = (d - D) * oo + D * (oo - im) := by ring
    rw [e]
    refine (abs_add_le _ _).trans ?_
    rw [abs_mul, abs_mul, abs_of_nonneg hD]
    have t1 := mul_le_mul hd oabs (abs_nonneg _) (by positivity)
    have t2 := mul_le_mul_of_nonneg_left hoo hD
    have e1 : (ε * D + η) * ((1 + ε) * im) = ε * (D * im) + ε * (ε * (D * im)) + (η + ε * η) * im := by ring
    have e2 : D * (ε * im) = ε * (D * im) := by ring
    have t3 : (η + ε * η) * im ≤ η + ε * η := mul_le_of_le_one_right (by linarith) hi1
    linarith
  have xabs : |d * oo| ≤ D * im + (17 / 8 * (ε * (D * im)) + 33 / 32 * η) := by
    have := abs_add_le (d * oo - D * im) (D * im)
    rw [sub_add_cancel, abs_of_nonneg hDi] at this
    linarith
  have t := mul_le_mul_of_nonneg_left xabs h0
  have e3 : ε * (D * im + (17 / 8 * (ε * (D * im)) + 33 / 32 * η)) = ε * (D * im) + 17 / 8 * (ε * (ε * (D * im))) + 33 / 32 * (ε * η) := by ring
  have e4 := abs_sub_le m (d * oo) (D * im)
  rw [mul_assoc]
  linarith

theorem rel_of_nat {n q : Nat} (hn : n < 2047 * 2 ^ 52) (hq : 0 < q) {c : Nat} (hc : c = 1074)
    (h : Spec.dist (umag n * q) (2 ^ c) * 2 ^ 53 ≤ 2 ^ c) : |realOf (BitVec.ofNat 64 n) - 1 / (q : ℝ)| ≤ 1 / 2 ^ 53 * (1 / q) := by
  have hN : (BitVec.ofNat 64 n).toNat = n := by rw [BitVec.toNat_ofNat, Nat.mod_eq_of_lt (by omega)]
  have hu : F64.units (BitVec.ofNat 64 n) = umag n := by
    rw [units_pattern, hN, if_neg (by omega), Nat.mod_eq_of_lt (by omega)]
  have hc0 : (0 : ℝ) < 2 ^ c := by positivity
  have hq0 : (0 : ℝ) < q := by exact_mod_cast hq
  rw [realOf_units _ hc, hu]
  have h' : |(umag n : ℝ) * q - 2 ^ c| * 2 ^ 53 ≤ 2 ^ c := by
    have e : |(umag n : ℝ) * q - 2 ^ c| = (Spec.dist (umag n * q) (2 ^ c) : ℝ) := by
      have e1 : (Spec.dist (umag n * q) (2 ^ c) : ℝ) = ((((umag n * q : Nat) : Int) - (2 ^ c : Nat)).natAbs : ℝ) := by
        congr 1
        unfold Spec.dist
        omega
      rw [e1, Nat.cast_natAbs]
      push_cast
      rfl
    rw [e]
    exact_mod_cast h
  have e2 : ((umag n : Int) : ℝ) / 2 ^ c - 1 / q = ((umag n : ℝ) * q - 2 ^ c) / (2 ^ c * q) := by
    push_cast
    field_simp
  rw [e2, abs_div, abs_of_pos (by positivity : (0 : ℝ) < 2 ^ c * q), div_le_iff₀ (by positivity)]
  have e3 : 1 / 2 ^ 53 * (1 / (q : ℝ)) * (2 ^ c * q) = 2 ^ c / 2 ^ 53 := by field_simp
  rw [e3, le_div_iff₀ (by positivity)]
  exact h'

theorem oo16_rel : |realOf oo16 - 1 / 65535| ≤ 1 / 2 ^ 53 * (1 / 65535) := by
  have := rel_of_nat (n := 0x3ef0001000100010) (q := 65535) (by decide) (by decide) (c := 1074) rfl (by decide +kernel)
  exact_mod_cast this

theorem oo8_rel : |realOf oo8 - 1 / 255| ≤ 1 / 2 ^ 53 * (1 / 255) := by
  have := rel_of_nat (n := 0x3f70101010101010) (q := 255) (by decide) (by decide) (c := 1074) rfl (by decide +kernel)
  exact_mod_cast this

/-- The intermediate results of `rangeF64` are rounded and do not overflow. -/
theorem rangeF64_steps (oo : F64) (max : Nat) (u : Nat) (lower upper : F64) (hmax : 1 ≤ max) (hmax' : max ≤ 65535) (hu : u ≤ max)
    (hoo : |realOf oo - 1 / (max : ℝ)| ≤ 1 / 2 ^ 53 * (1 / max))
    (hL : |realOf lower| ≤ 2 ^ 1000) (hU : |realOf upper| ≤ 2 ^ 1000) :
    ∃ n : F64, intToF64 u = some n ∧ realOf n = u ∧ |realOf n * realOf oo| ≤ 2 ^ 1023 ∧ |realOf upper - realOf lower| ≤ 2 ^ 1023 ∧
      |realOf (n.mul oo) * realOf (upper.sub lower)| ≤ 2 ^ 1023 ∧
      |realOf ((n.mul oo).mul (upper.sub lower)) + realOf lower| ≤ 2 ^ 1023 ∧ |realOf (upper.sub lower) * realOf oo| ≤ 2 ^ 1023 := by
  obtain ⟨n, hn, -, hnr⟩ := intToF64_exact u (by omega)
  have hB : ∃ B : ℝ, (∀ r : ℝ, r ≤ 2 ^ 1000 → r ≤ B) ∧ 1 ≤ B ∧ ∀ r : ℝ, r ≤ 64 * B → r ≤ 2 ^ 1023 := by
    refine ⟨2 ^ 1000, fun _ h => h, one_le_pow₀ (by norm_num), ?_⟩
    intro r hr
    refine hr.trans ?_
    have : (2 : ℝ) ^ 1023 = 2 ^ 23 * 2 ^ 1000 := by rw [← pow_add]
    rw [this]
    exact mul_le_mul_of_nonneg_right (by norm_num) (by positivity)
  obtain ⟨B, hB0, hB1, hB2⟩ := hB
  replace hL := hB0 _ hL
  replace hU := hB0 _ hU
  have hη : ∃ η : ℝ, ∃ c : Nat, c = 1074 ∧ 1 / 2 ^ (c + 1) = η ∧ 0 ≤ η ∧ η ≤ 1 := by
    refine ⟨1 / 2 ^ (1074 + 1), 1074, rfl, rfl, by positivity, ?_⟩
    exact div_le_one_of_le₀ (one_le_pow₀ (by norm_num)) (by positivity)
  obtain ⟨η, c, hc, hη, hη0, hη1⟩ := hη
  have hm0 : (1 : ℝ) ≤ max := by exact_mod_cast hmax
  have hi0 : (0 : ℝ) < 1 / max := by positivity
  have hi1 : 1 / (max : ℝ) ≤ 1 := (div_le_one (by linarith)).mpr hm0
  have hu' : (u : ℝ) ≤ max := by exact_mod_cast hu
  have hu0 : (0 : ℝ) ≤ u := by positivity
  have hε : (1 : ℝ) / 2 ^ 53 ≤ 1 / 64 := by norm_num
  have hε0 : (0 : ℝ) ≤ 1 / 2 ^ 53 := by norm_num
  have oabs : |realOf oo| ≤ 2 * (1 / max) := by
    have h1 := abs_add_le (realOf oo - 1 / max) (1 / max)
    rw [sub_add_cancel, abs_of_pos hi0] at h1
    have h2 : 1 / 2 ^ 53 * (1 / (max : ℝ)) ≤ 1 * (1 / max) := mul_le_mul_of_nonneg_right (by linarith) hi0.le
    linarith
  have oabs1 : |realOf oo| ≤ 2 := by linarith
  -- u * oo
  have a1 : |realOf n * realOf oo| ≤ 2 := by
    rw [hnr, abs_mul, abs_of_nonneg hu0]
    calc (u : ℝ) * |realOf oo| ≤ max * (2 * (1 / max)) := mul_le_mul hu' oabs (abs_nonneg _) (by linarith)
      _ = 2 := by field_simp
  have b1 : |realOf n * realOf oo| ≤ 2 ^ 1023 := hB2 _ (by linarith)
  have e1 := mul_err n oo b1 hc
  rw [hη] at e1
  have a2 : |realOf (n.mul oo)| ≤ 4 := by
    have h1 := abs_add_le (realOf (n.mul oo) - realOf n * realOf oo) (realOf n * realOf oo)
    rw [sub_add_cancel] at h1
    have h2 := mul_le_mul_of_nonneg_left a1 hε0
    linarith
  -- delta
  have a3 : |realOf upper - realOf lower| ≤ 2 * B := by
    have := abs_sub (realOf upper) (realOf lower)
    linarith
  have b3 : |realOf upper - realOf lower| ≤ 2 ^ 1023 := hB2 _ (by linarith)
  have e3 := sub_err upper lower b3 hc
  rw [hη] at e3
  have a4 : |realOf (upper.sub lower)| ≤ 4 * B := by
    have h1 := abs_add_le (realOf (upper.sub lower) - (realOf upper - realOf lower)) (realOf upper - realOf lower)
    rw [sub_add_cancel] at h1
    have h2 := mul_le_mul_of_nonneg_left a3 hε0
    have h3 : 1 / 2 ^ 53 * (2 * B) ≤ 1 / 64 * (2 * B) := mul_le_mul_of_nonneg_right hε (by linarith)
    linarith
  have a5 : |realOf (n.mul oo) * realOf (upper.sub lower)| ≤ 16 * B := by
    rw [abs_mul]
    calc |realOf (n.mul oo)| * |realOf (upper.sub lower)| ≤ 4 * (4 * B) := mul_le_mul a2 a4 (abs_nonneg _) (by norm_num)
      _ = 16 * B := by ring
  have b5 : |realOf (n.mul oo) * realOf (upper.sub lower)| ≤ 2 ^ 1023 := hB2 _ (by linarith)
  have e5 := mul_err (n.mul oo) (upper.sub lower) b5 hc
  rw [hη] at e5
  have a6 : |realOf ((n.mul oo).mul (upper.sub lower)) + realOf lower| ≤ 64 * B := by
    have h1 := abs_add_le (realOf ((n.mul oo).mul (upper.sub lower)) - realOf (n.mul oo) * realOf (upper.sub lower)) (realOf (n.mul oo) * realOf (upper.sub lower))
    rw [sub_add_cancel] at h1
    have h2 := mul_le_mul_of_nonneg_left a5 hε0
    have h3 : 1 / 2 ^ 53 * (16 * B) ≤ 1 / 64 * (16 * B) := mul_le_mul_of_nonneg_right hε (by linarith)
    have h4 := abs_add_le (realOf ((n.mul oo).mul (upper.sub lower))) (realOf lower)
    linarith
  have a7 : |realOf (upper.sub lower) * realOf oo| ≤ 64 * B := by
    rw [abs_mul]
    calc |realOf (upper.sub lower)| * |realOf oo| ≤ (4 * B) * 2 := mul_le_mul a4 oabs1 (abs_nonneg _) (by linarith)
      _ ≤ 64 * B := by linarith
  exact ⟨n, hn, hnr, b1, b3, b5, hB2 _ a6, hB2 _ a7⟩

theorem units_lt_iff (x y : F64) : ((x.units.natAbs : Int) < y.units) ↔ |realOf x| < realOf y := by
  obtain ⟨c, hc⟩ : ∃ c, c = 1074 := ⟨_, rfl⟩
  have hp : (0 : ℝ) < 2 ^ c := by positivity
  rw [realOf_units x hc, realOf_units y hc, abs_div, abs_of_pos hp, div_lt_div_iff_of_pos_right hp, Int.natCast_natAbs]
  constructor
  · intro h; exact_mod_cast h
  · intro h; exact_mod_cast h

theorem realOf_zero : realOf 0 = 0 := by
  have h : mag64 (0 : F64).toNat = 0 := by decide +kernel
  unfold realOf
  rw [h]
  simp

theorem finite_zero : IsFinite 0 := by unfold IsFinite Finite64; decide

theorem rangeF64_eq {oo lower upper n : F64} {u : Nat} (hn : intToF64 u = some n) :
    rangeF64 oo u lower upper =
      if |realOf (((n.mul oo).mul (upper.sub lower)).add lower)| < realOf ((upper.sub lower).mul oo) then 0
      else ((n.mul oo).mul (upper.sub lower)).add lower := by
  unfold rangeF64
  rw [hn]
  simp only [Option.getD_some]
  by_cases h : |realOf (((n.mul oo).mul (upper.sub lower)).add lower)| < realOf ((upper.sub lower).mul oo)
  · rw [if_pos h, if_pos ((units_lt_iff _ _).mpr h)]
  · rw [if_neg h, if_neg (fun h' => h ((units_lt_iff _ _).mp h'))]

end Pyogp
