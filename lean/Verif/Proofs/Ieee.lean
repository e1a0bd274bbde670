import Verif.Proofs.Float
import Verif.Spec.Ieee

namespace Pyogp
open Spec

/-- `mag32` of a sign-less pattern, with the unit `2^c` as a parameter (`c = 925` is never evaluated). -/
def vmag (c n : Nat) : Nat :=
  (if n / 2 ^ 23 = 0 then n % 2 ^ 23 else (2 ^ 23 + n % 2 ^ 23) * 2 ^ (n / 2 ^ 23 - 1)) * 2 ^ c

theorem mag32_vmag' (f : Nat) {c : Nat} (hc : c = 925) : mag32 f = vmag c (f % 2 ^ 31) := by
  unfold mag32 vmag
  have h1 : f % 2 ^ 31 / 2 ^ 23 = f / 2 ^ 23 % 2 ^ 8 := by omega
  have h2 : f % 2 ^ 31 % 2 ^ 23 = f % 2 ^ 23 := by omega
  rw [h1, h2, hc]

theorem vmag_normal {c q k : Nat} (h1 : 2 ^ 23 ≤ q) (h2 : q ≤ 2 ^ 24) :
    vmag c (k * 2 ^ 23 + q) = q * 2 ^ (k + c) := by
  unfold vmag
  rcases Nat.lt_or_eq_of_le h2 with h | h
  · have e1 : (k * 2 ^ 23 + q) / 2 ^ 23 = k + 1 := by omega
    have e2 : (k * 2 ^ 23 + q) % 2 ^ 23 = q - 2 ^ 23 := by omega
    rw [e1, e2, if_neg (by omega), Nat.mul_assoc, ← Nat.pow_add, show 2 ^ 23 + (q - 2 ^ 23) = q by omega,
      Nat.add_sub_cancel]
  · have e1 : (k * 2 ^ 23 + q) / 2 ^ 23 = k + 2 := by omega
    have e2 : (k * 2 ^ 23 + q) % 2 ^ 23 = 0 := by omega
    rw [e1, e2, if_neg (by omega), Nat.mul_assoc, ← Nat.pow_add, h]
    rw [show k + 2 - 1 + c = 1 + (k + c) by omega, Nat.pow_add 2 1, ← Nat.mul_assoc]

theorem vmag_sub {c q : Nat} (h : q ≤ 2 ^ 23) : vmag c q = q * 2 ^ c := by
  rcases Nat.lt_or_eq_of_le h with h' | h'
  · unfold vmag
    rw [if_pos (by omega), Nat.mod_eq_of_lt h']
  · have := vmag_normal (c := c) (q := q) (k := 0) (by omega) (by omega)
    simpa using this

theorem vmag_step (c n : Nat) : vmag c n < vmag c (n + 1) := by
  by_cases h : n < 2 ^ 23
  · rw [vmag_sub (by omega), vmag_sub (by omega)]
    exact Nat.mul_lt_mul_of_pos_right (by omega) (Nat.two_pow_pos _)
  · have e : n = (n / 2 ^ 23 - 1) * 2 ^ 23 + (2 ^ 23 + n % 2 ^ 23) := by omega
    generalize hk : n / 2 ^ 23 - 1 = k at e
    generalize hq : 2 ^ 23 + n % 2 ^ 23 = q at e
    rw [e, Nat.add_assoc, vmag_normal (by omega) (by omega), vmag_normal (by omega) (by omega)]
    exact Nat.mul_lt_mul_of_pos_right (by omega) (Nat.two_pow_pos _)

theorem vmag_mono {c a b : Nat} (h : a ≤ b) : vmag c a ≤ vmag c b := by
  induction h with
  | refl => exact Nat.le_refl _
  | step _ ih => exact Nat.le_trans ih (Nat.le_of_lt (vmag_step _ _))

/-- Rounding to one of two consecutive singles `a`, `a + 1` whose magnitudes are `q·W` and `(q+1)·W`. -/
theorem nearest_core {c a q W N r : Nat} (va : vmag c a = q * W) (vb : vmag c (a + 1) = (q + 1) * W) (hN : N = q * W + r)
    (hr : r < W) {up : Prop} [Decidable up] (hup : up ↔ (W < 2 * r ∨ (2 * r = W ∧ q % 2 = 1)))
    (hpar : a % 2 = q % 2) (b : Nat) :
    let n := if up then a + 1 else a
    dist N (vmag c n) ≤ dist N (vmag c b) ∧ (dist N (vmag c n) = dist N (vmag c b) → vmag c b ≠ vmag c n → n % 2 = 0) := by
  intro n
  have hb : vmag c b ≤ q * W ∨ (q + 1) * W ≤ vmag c b := by
    rcases Nat.lt_or_ge a b with h | h
    · right; rw [← vb]; exact vmag_mono h
    · left; rw [← va]; exact vmag_mono h
  rw [Nat.add_mul, Nat.one_mul] at vb hb
  have hn : n = if up then a + 1 else a := rfl
  clear_value n
  generalize q * W = Q at *
  by_cases h : up
  · rw [if_pos h] at hn
    have h' := hup.mp h
    subst hn
    rw [vb]
    generalize vmag c b = B at *
    unfold dist
    omega
  · rw [if_neg h] at hn
    have h' : ¬ (W < 2 * r ∨ (2 * r = W ∧ q % 2 = 1)) := fun c => h (hup.mpr c)
    subst hn
    rw [va]
    generalize vmag c b = B at *
    unfold dist
    omega

theorem roundShift_eq (S sh : Nat) :
    roundShift S sh = if 2 ^ sh < 2 * (S % 2 ^ sh) ∨ (2 * (S % 2 ^ sh) = 2 ^ sh ∧ S / 2 ^ sh % 2 = 1)
      then S / 2 ^ sh + 1 else S / 2 ^ sh := rfl

/-- The two cases of `narrowBits` that round. -/
theorem nearest_round {c S sh j K W : Nat} (hW : W = 2 ^ sh * K) (hK : 0 < K)
    (va : ∀ q, S / 2 ^ sh ≤ q → q ≤ S / 2 ^ sh + 1 → vmag c (j * 2 ^ 23 + q) = q * W) (b : Nat) :
    dist (S * K) (vmag c (j * 2 ^ 23 + roundShift S sh)) ≤ dist (S * K) (vmag c b) ∧
    (dist (S * K) (vmag c (j * 2 ^ 23 + roundShift S sh)) = dist (S * K) (vmag c b) →
      vmag c b ≠ vmag c (j * 2 ^ 23 + roundShift S sh) → (j * 2 ^ 23 + roundShift S sh) % 2 = 0) := by
  have hT := Nat.two_pow_pos sh
  have hdm := Nat.div_add_mod S (2 ^ sh)
  have hml := Nat.mod_lt S hT
  have key := nearest_core (c := c) (a := j * 2 ^ 23 + S / 2 ^ sh) (q := S / 2 ^ sh) (W := W) (N := S * K)
    (r := S % 2 ^ sh * K) (va _ (Nat.le_refl _) (by omega))
    (by rw [Nat.add_assoc]; exact va _ (by omega) (Nat.le_refl _))
    (by rw [hW, ← Nat.mul_assoc, ← Nat.add_mul, Nat.mul_comm (S / _), hdm])
    (by rw [hW]; exact Nat.mul_lt_mul_of_pos_right hml hK)
    (up := 2 ^ sh < 2 * (S % 2 ^ sh) ∨ (2 * (S % 2 ^ sh) = 2 ^ sh ∧ S / 2 ^ sh % 2 = 1))
    (by
      rw [hW, ← Nat.mul_assoc, Nat.mul_lt_mul_right hK]
      rw [Nat.mul_right_cancel_iff hK])
    (by omega) b
  rw [roundShift_eq]
  simp only at key
  split at key
  · rename_i h
    rw [if_pos h, ← Nat.add_assoc]
    exact key
  · rename_i h
    rw [if_neg h]
    exact key

theorem roundShift_le {S sh : Nat} {B : Nat} (h : S / 2 ^ sh < B) : roundShift S sh ≤ B := by
  rw [roundShift_eq]; split <;> omega

theorem roundShift_ge {S sh : Nat} : S / 2 ^ sh ≤ roundShift S sh := by
  rw [roundShift_eq]; split <;> omega

/-- Rounding a finite double to single. -/
theorem narrow_nearest {d : Nat} (hd : d < 2 ^ 64) (hf : Finite64 d) {f : Nat} (h : narrowBits d = some f) :
    f < 2 ^ 32 ∧ Finite32 f ∧ neg32 f = neg64 d ∧
    ∀ g, dist (mag64 d) (mag32 f) ≤ dist (mag64 d) (mag32 g) ∧
      (dist (mag64 d) (mag32 f) = dist (mag64 d) (mag32 g) → mag32 g ≠ mag32 f → f % 2 = 0) := by
  refine ⟨narrowBits_lt hd h, ?_⟩
  obtain ⟨c, hc⟩ : ∃ c, c = 925 := ⟨_, rfl⟩
  unfold Finite64 at hf
  unfold narrowBits at h
  simp only [if_neg hf] at h
  have hs : d / 2 ^ 63 < 2 := by omega
  have hm : d % 2 ^ 52 < 2 ^ 52 := Nat.mod_lt _ (by decide)
  have hneg : ∀ r, r < 2 ^ 31 → neg32 (d / 2 ^ 63 * 2 ^ 31 + r) = neg64 d := by
    intro r hr
    unfold neg32 neg64
    rw [show (d / 2 ^ 63 * 2 ^ 31 + r) / 2 ^ 31 = d / 2 ^ 63 by omega]
  split at h
  · rename_i he
    have hf' : f = d / 2 ^ 63 * 2 ^ 31 := (Option.some.inj h).symm
    refine ⟨by unfold Finite32; omega, by have := hneg 0 (by decide); rwa [Nat.add_zero, ← hf'] at this, ?_⟩
    intro g
    rw [mag32_vmag' f hc, mag32_vmag' g hc]
    have h31 : f % 2 ^ 31 = 0 := by omega
    rw [h31]
    have key := nearest_core (c := c) (a := 0) (q := 0) (W := 2 ^ c) (N := mag64 d) (r := mag64 d)
      (up := False) (by rw [vmag_sub (by decide)]) (by rw [vmag_sub (by decide)])
      (by omega)
      (by
        unfold mag64; rw [if_pos he]
        exact Nat.lt_of_lt_of_le hm (Nat.pow_le_pow_right (by decide) (by omega)))
      (by
        unfold mag64; rw [if_pos he]
        have : 2 * (d % 2 ^ 52) < 2 ^ c :=
          Nat.lt_of_lt_of_le (m := 2 ^ 53) (by omega) (Nat.pow_le_pow_right (by decide) (by omega))
        generalize 2 ^ c = X at *
        constructor
        · intro h; exact h.elim
        · intro h; exfalso; omega) rfl (g % 2 ^ 31)
    simp only [if_false] at key
    refine ⟨key.1, fun h1 h2 => ?_⟩
    omega
  · rename_i he
    have hmag : mag64 d = (2 ^ 52 + d % 2 ^ 52) * 2 ^ (d / 2 ^ 52 % 2 ^ 11 - 1) := by
      unfold mag64; rw [if_neg he]
    rw [hmag]
    generalize d / 2 ^ 52 % 2 ^ 11 = e at *
    generalize d % 2 ^ 52 = m at *
    have hK := Nat.two_pow_pos (e - 1)
    generalize hn : (if 897 ≤ e then (e - 897) * 2 ^ 23 + roundShift (2 ^ 52 + m) 29
      else roundShift (2 ^ 52 + m) (29 + (897 - e))) = n at h
    split at h
    · cases h
    · rename_i hov
      have hf' : f = d / 2 ^ 63 * 2 ^ 31 + n := (Option.some.inj h).symm
      have hn31 : f % 2 ^ 31 = n := by omega
      refine ⟨by unfold Finite32; omega, by rw [hf']; exact hneg n (by omega), ?_⟩
      intro g
      rw [mag32_vmag' f hc, mag32_vmag' g hc, hn31, show f % 2 = n % 2 by omega]
      split at hn
      · rename_i he2
        have := nearest_round (c := c) (S := 2 ^ 52 + m) (sh := 29) (j := e - 897) (K := 2 ^ (e - 1))
          (W := 2 ^ ((e - 897) + c))
          (by rw [← Nat.pow_add]; exact congrArg (2 ^ ·) (by omega)) hK
          (fun q h1 h2 => vmag_normal (by omega) (by omega)) (g % 2 ^ 31)
        rw [hn] at this
        exact this
      · rename_i he2
        have := nearest_round (c := c) (S := 2 ^ 52 + m) (sh := 29 + (897 - e)) (j := 0) (K := 2 ^ (e - 1))
          (W := 2 ^ c)
          (by rw [← Nat.pow_add]; exact congrArg (2 ^ ·) (by omega)) hK
          (fun q h1 h2 => by
            rw [Nat.zero_mul, Nat.zero_add]
            apply vmag_sub
            have : (2 ^ 52 + m) / 2 ^ (29 + (897 - e)) < 2 ^ 23 := by
              rw [Nat.div_lt_iff_lt_mul (Nat.two_pow_pos _)]
              calc 2 ^ 52 + m < 2 ^ 53 := by omega
                _ = 2 ^ 23 * 2 ^ 30 := by rw [← Nat.pow_add]
                _ ≤ 2 ^ 23 * 2 ^ (29 + (897 - e)) :=
                    Nat.mul_le_mul_left _ (Nat.pow_le_pow_right (by decide) (by omega))
            omega) (g % 2 ^ 31)
        rw [Nat.zero_mul, Nat.zero_add, hn] at this
        exact this

/-- `struct.pack('f', x)` overflows exactly from the half-way point above the largest single. -/
theorem narrow_overflow {d : Nat} (hf : Finite64 d) : narrowBits d = none ↔ singleOverflow ≤ mag64 d := by
  obtain ⟨c, hc⟩ : ∃ c, c = 1177 := ⟨_, rfl⟩
  have hso : singleOverflow = (2 ^ 25 - 1) * 2 ^ c := by rw [hc]; rfl
  rw [hso]
  unfold Finite64 at hf
  unfold narrowBits mag64
  simp only [if_neg hf]
  have hm : d % 2 ^ 52 < 2 ^ 52 := Nat.mod_lt _ (by decide)
  split
  · rename_i he
    constructor
    · intro h; cases h
    · intro h
      have : 2 ^ 52 ≤ 2 ^ c := Nat.pow_le_pow_right (by decide) (by omega)
      omega
  · rename_i he
    have he11 : d / 2 ^ 52 % 2 ^ 11 < 2 ^ 11 := Nat.mod_lt _ (by decide)
    generalize d / 2 ^ 52 % 2 ^ 11 = e at *
    generalize d % 2 ^ 52 = m at *
    have hK := Nat.two_pow_pos (e - 1)
    have hlt : ∀ j, e - 1 + 53 ≤ j → (2 ^ 52 + m) * 2 ^ (e - 1) < 2 ^ j := by
      intro j hj
      calc (2 ^ 52 + m) * 2 ^ (e - 1) < 2 ^ 53 * 2 ^ (e - 1) := Nat.mul_lt_mul_of_pos_right (by omega) hK
        _ = 2 ^ (53 + (e - 1)) := by rw [Nat.pow_add]
        _ ≤ 2 ^ j := Nat.pow_le_pow_right (by decide) (by omega)
    split
    · rename_i h897
      have e1 := @roundShift_ge (2 ^ 52 + m) 29
      have e2 := @roundShift_le (2 ^ 52 + m) 29 (2 ^ 24) (by omega)
      rcases Nat.lt_trichotomy e 1150 with h | h | h
      · rw [if_neg (by omega)]
        constructor
        · intro h; cases h
        · intro h'
          have := hlt (24 + c) (by omega)
          rw [Nat.pow_add] at this
          have hc2 := Nat.two_pow_pos c
          omega
      · have hcK : 2 ^ c = 2 ^ 28 * 2 ^ (e - 1) := by
          rw [← Nat.pow_add]; exact congrArg (2 ^ ·) (by omega)
        rw [hcK, ← Nat.mul_assoc, Nat.mul_le_mul_right_iff hK]
        rw [h]
        rw [roundShift_eq]
        clear e1 e2 hlt hcK hK hso
        split
        · rename_i hov
          split
          · simp only [true_iff]; omega
          · rename_i h9; simp only [reduceCtorEq, false_iff]; omega
        · rename_i hov
          split
          · simp only [true_iff]; omega
          · rename_i h9; simp only [reduceCtorEq, false_iff]; omega
      · rw [if_pos (by omega)]
        constructor
        · intro _
          calc (2 ^ 25 - 1) * 2 ^ c ≤ 2 ^ 25 * 2 ^ c := Nat.mul_le_mul_right _ (by decide)
            _ = 2 ^ (25 + c) := by rw [Nat.pow_add]
            _ ≤ 2 ^ (52 + (e - 1)) := Nat.pow_le_pow_right (by decide) (by omega)
            _ = 2 ^ 52 * 2 ^ (e - 1) := by rw [Nat.pow_add]
            _ ≤ _ := Nat.mul_le_mul_right _ (by omega)
        · intro _; rfl
    · rename_i h897
      have hq : (2 ^ 52 + m) / 2 ^ (29 + (897 - e)) < 2 ^ 23 := by
        rw [Nat.div_lt_iff_lt_mul (Nat.two_pow_pos _)]
        calc 2 ^ 52 + m < 2 ^ 53 := by omega
          _ = 2 ^ 23 * 2 ^ 30 := by rw [← Nat.pow_add]
          _ ≤ 2 ^ 23 * 2 ^ (29 + (897 - e)) :=
              Nat.mul_le_mul_left _ (Nat.pow_le_pow_right (by decide) (by omega))
      have e2 := roundShift_le hq
      rw [if_neg (by omega)]
      constructor
      · intro h; cases h
      · intro h'
        have := hlt (24 + c) (by omega)
        rw [Nat.pow_add] at this
        have hc2 := Nat.two_pow_pos c
        omega

/-- Widening a finite single is exact. -/
theorem widen_exact {f : Nat} (hf : f < 2 ^ 32) (hfin : Finite32 f) :
    Finite64 (widenBits f) ∧ neg64 (widenBits f) = neg32 f ∧ mag64 (widenBits f) = mag32 f := by
  obtain ⟨c, hc⟩ : ∃ c, c = 925 := ⟨_, rfl⟩
  unfold Finite32 at hfin
  have hm32 : mag32 f = (if f / 2 ^ 23 % 2 ^ 8 = 0 then f % 2 ^ 23 else
      (2 ^ 23 + f % 2 ^ 23) * 2 ^ (f / 2 ^ 23 % 2 ^ 8 - 1)) * 2 ^ c := by rw [hc]; rfl
  rw [hm32]
  have hm : f % 2 ^ 23 < 2 ^ 23 := Nat.mod_lt _ (by decide)
  have he8 : f / 2 ^ 23 % 2 ^ 8 < 2 ^ 8 := Nat.mod_lt _ (by decide)
  have hs : f / 2 ^ 31 < 2 := by omega
  have main : ∀ E M, E < 2047 → M < 2 ^ 52 → ∀ w, w = f / 2 ^ 31 * 2 ^ 63 + E * 2 ^ 52 + M →
      Finite64 w ∧ neg64 w = neg32 f ∧ mag64 w = if E = 0 then M else (2 ^ 52 + M) * 2 ^ (E - 1) := by
    intro E M hE hM w hw
    have e1 : w / 2 ^ 63 = f / 2 ^ 31 := by omega
    have e2 : w / 2 ^ 52 % 2 ^ 11 = E := by omega
    have e3 : w % 2 ^ 52 = M := by omega
    refine ⟨?_, ?_, ?_⟩
    · unfold Finite64; rw [e2]; omega
    · unfold neg64 neg32; rw [e1]
    · unfold mag64; rw [e2, e3]
  unfold widenBits
  simp only [if_neg hfin]
  split
  · split
    · rename_i h0 hm0
      obtain ⟨a, b, d⟩ := main 0 0 (by decide) (by decide) (f / 2 ^ 31 * 2 ^ 63) (by omega)
      refine ⟨a, b, ?_⟩
      rw [d, hm0]; simp
    · rename_i h0 hm0
      generalize f % 2 ^ 23 = m at *
      have h1 := Nat.log2_self_le hm0
      have h2 := (Nat.log2_lt hm0).mpr hm
      have h3 := @Nat.lt_log2_self m
      generalize Nat.log2 m = k at *
      have h4 : (m - 2 ^ k) * 2 ^ (52 - k) < 2 ^ k * 2 ^ (52 - k) := by
        apply Nat.mul_lt_mul_of_pos_right _ (Nat.two_pow_pos _)
        rw [Nat.pow_succ] at h3; omega
      have h5 : 2 ^ k * 2 ^ (52 - k) = 2 ^ 52 := by
        rw [← Nat.pow_add, show k + (52 - k) = 52 by omega]
      have h6 : 2 ^ 52 + (m - 2 ^ k) * 2 ^ (52 - k) = m * 2 ^ (52 - k) := by
        rw [← h5, ← Nat.add_mul, show 2 ^ k + (m - 2 ^ k) = m by omega]
      rw [h5] at h4
      obtain ⟨a, b, d⟩ := main (k + 874) _ (by omega) h4 _ rfl
      refine ⟨a, b, ?_⟩
      rw [d, if_neg (by omega), h6, Nat.mul_assoc, ← Nat.pow_add]
      rw [show 52 - k + (k + 874 - 1) = c by omega]
  · rename_i h0
    obtain ⟨a, b, d⟩ := main (f / 2 ^ 23 % 2 ^ 8 + 896) (f % 2 ^ 23 * 2 ^ 29) (by omega) (by omega) _ rfl
    refine ⟨a, b, ?_⟩
    rw [d, if_neg (by omega)]
    rw [show 2 ^ 52 + f % 2 ^ 23 * 2 ^ 29 = (2 ^ 23 + f % 2 ^ 23) * 2 ^ 29 by omega]
    rw [Nat.mul_assoc, ← Nat.pow_add, Nat.mul_assoc, ← Nat.pow_add]
    rw [show 29 + (f / 2 ^ 23 % 2 ^ 8 + 896 - 1) = f / 2 ^ 23 % 2 ^ 8 - 1 + c by omega]

end Pyogp
