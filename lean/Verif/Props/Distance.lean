import Verif.Proofs.Distance

/-! # C99: distances between points -/

namespace Pyogp
open Spec

/-- **C99.** The distance from `a` to `b` is bit by bit the distance from `b` to `a`. -/
theorem C99_symmetric (a b : Vec3) (_ : FiniteVec a) (_ : FiniteVec b) : distSquared a b = distSquared b a := by
  simp only [distSquared]
  rw [sq_sub_comm a.X b.X, sq_sub_comm a.Y b.Y, sq_sub_comm a.Z b.Z]

/-- **C99.** It is never a NaN and never negative: a finite number that is not negative (nor `-0.0`), or infinity. -/
theorem C99_nonneg (a b : Vec3) (_ : FiniteVec a) (_ : FiniteVec b) :
    (distSquared a b).toNat ≤ 2047 * 2 ^ 52 ∧ (IsFinite (distSquared a b) → 0 ≤ realOf (distSquared a b)) := by
  have h1 := add_nonneg_bits (units_mul_nonneg (F64.sub a.X b.X)) (units_mul_nonneg (F64.sub a.Y b.Y))
  have h2 := add_nonneg_bits h1.2 (units_mul_nonneg (F64.sub a.Z b.Z))
  refine ⟨h2.1, fun _ => ?_⟩
  obtain ⟨c, hc⟩ : ∃ c, c = 1074 := ⟨_, rfl⟩
  rw [realOf_units _ hc]
  have : (0 : ℝ) ≤ ((distSquared a b).units : ℝ) := by exact_mod_cast h2.2
  positivity

/-- **C99.** A point has distance 0 from itself. -/
theorem C99_self (a : Vec3) (_ : FiniteVec a) : distSquared a a = 0 := by
  have h0 : ∀ x : F64, F64.sub x x = 0 := by
    intro x
    unfold F64.sub
    rw [sub_self]
    decide +kernel
  simp only [distSquared, h0]
  decide +kernel

theorem within_sub {x y : F64} (hx : |realOf x| ≤ 2 ^ 500) (hy : |realOf y| ≤ 2 ^ 500) : |realOf x - realOf y| ≤ 2 ^ 501 := by
  have := abs_sub (realOf x) (realOf y)
  have e : (2 : ℝ) ^ 501 = 2 * 2 ^ 500 := by rw [pow_succ]; ring
  rw [e]
  generalize (2 : ℝ) ^ 500 = M at *
  linarith

/-- What is needed about one coordinate. -/
theorem coordinate {x y : F64} {c : Nat} (hc : c = 1074) (hx : |realOf x| ≤ 2 ^ 500) (hy : |realOf y| ≤ 2 ^ 500) :
    |realOf (F64.mul (F64.sub x y) (F64.sub x y)) - (realOf x - realOf y) ^ 2| ≤ 42 / 10 * (1 / 2 ^ 53 * (realOf x - realOf y) ^ 2) + 1 / 2 ^ (c + 1) ∧
    0 ≤ realOf (F64.mul (F64.sub x y) (F64.sub x y)) ∧ realOf (F64.mul (F64.sub x y) (F64.sub x y)) ≤ 2 ^ 1010 := by
  have hd := within_sub hx hy
  have h1 : (2 : ℝ) ^ 501 ≤ 2 ^ 1023 := pow_le_pow_right₀ (by norm_num) (by norm_num)
  have hs := sub_rel x y (hd.trans h1)
  set d := realOf x - realOf y with hdd
  set s := F64.sub x y with hss
  have hs2 : |realOf s| ≤ 2 ^ 502 := by
    have := abs_add_le (realOf s - d) d
    rw [sub_add_cancel] at this
    have e : (2 : ℝ) ^ 502 = 2 * 2 ^ 501 := by rw [pow_succ]; ring
    rw [e]
    have h2 : 3 / 2 * (1 / 2 ^ 53) * |d| ≤ 1 * |d| := by gcongr; norm_num
    generalize (2 : ℝ) ^ 501 = M at *
    linarith
  have hm0 : |realOf s * realOf s| ≤ 2 ^ 1004 := by
    rw [abs_mul, show (2 : ℝ) ^ 1004 = 2 ^ 502 * 2 ^ 502 by rw [← pow_add]]
    gcongr
  have h3 : (2 : ℝ) ^ 1004 ≤ 2 ^ 1023 := pow_le_pow_right₀ (by norm_num) (by norm_num)
  have hm := mul_err s s (hm0.trans h3) hc
  refine ⟨square_error (by positivity) (by norm_num) hs hm, ?_, ?_⟩
  · rw [realOf_units _ hc]
    have : (0 : ℝ) ≤ ((F64.mul s s).units : ℝ) := by exact_mod_cast units_mul_nonneg s
    positivity
  · have h4 := (abs_le.mp hm).2
    have h5 := (abs_le.mp hm0).2
    have h6 : (1 : ℝ) / 2 ^ 53 * |realOf s * realOf s| ≤ 1 * 2 ^ 1004 := by gcongr; norm_num
    have h7 : (1 : ℝ) / 2 ^ (c + 1) ≤ 1 := by
      rw [div_le_one (by positivity)]
      exact one_le_pow₀ (by norm_num)
    have h8 : (1 : ℝ) ≤ 2 ^ 1004 := one_le_pow₀ (by norm_num)
    have e : (2 : ℝ) ^ 1010 = 64 * 2 ^ 1004 := by rw [show 1010 = 6 + 1004 by norm_num, pow_add]; norm_num
    rw [e]
    generalize (2 : ℝ) ^ 1004 = M at *
    linarith

/-- **C99.** It respects every coordinate: points that are no further apart in any coordinate are not found to be further apart.  (Among numbers that are not negative,
infinity included, the order is that of the bit patterns.) -/
theorem C99_monotone (a b c d : Vec3) (_ : FiniteVec a) (_ : FiniteVec b) (_ : FiniteVec c) (_ : FiniteVec d)
    (hX : |realOf a.X - realOf b.X| ≤ |realOf c.X - realOf d.X|) (hY : |realOf a.Y - realOf b.Y| ≤ |realOf c.Y - realOf d.Y|)
    (hZ : |realOf a.Z - realOf b.Z| ≤ |realOf c.Z - realOf d.Z|) : (distSquared a b).toNat ≤ (distSquared c d).toNat := by
  have x := square_mono (natAbs_of_real hX)
  have y := square_mono (natAbs_of_real hY)
  have z := square_mono (natAbs_of_real hZ)
  have p := units_mul_nonneg (F64.sub a.X b.X)
  have q := units_mul_nonneg (F64.sub a.Y b.Y)
  exact (add_mono (add_nonneg_bits p q).2 (units_mul_nonneg _) (add_mono p q x y).2 z).1

/-- **C99.** If all coordinates are at most `2^500`, the result is the square of the distance, up to a relative error of `8 · 2^-53` and an absolute one of `2^-1073`. -/
theorem C99_accuracy (a b : Vec3) (ha : Within a) (hb : Within b) :
    |realOf (distSquared a b) - exactDistance a b| ≤ 8 * (1 / 2 ^ 53) * exactDistance a b + 1 / 2 ^ 1073 := by
  obtain ⟨c, hc⟩ : ∃ c, c = 1074 := ⟨_, rfl⟩
  obtain ⟨x1, x2, x3⟩ := coordinate hc ha.1 hb.1
  obtain ⟨y1, y2, y3⟩ := coordinate hc ha.2.1 hb.2.1
  obtain ⟨z1, z2, z3⟩ := coordinate hc ha.2.2 hb.2.2
  simp only [distSquared, exactDistance]
  generalize F64.mul (F64.sub a.X b.X) (F64.sub a.X b.X) = p at *
  generalize F64.mul (F64.sub a.Y b.Y) (F64.sub a.Y b.Y) = q at *
  generalize F64.mul (F64.sub a.Z b.Z) (F64.sub a.Z b.Z) = r at *
  have hM : (0 : ℝ) ≤ 2 ^ 1010 := by positivity
  have e : (2 : ℝ) ^ 1023 = 8192 * 2 ^ 1010 := by rw [show 1023 = 13 + 1010 by norm_num, pow_add]; norm_num
  have hs := add_rel p q (by
    rw [abs_of_nonneg (by linarith), e]
    clear e
    generalize (2 : ℝ) ^ 1010 = M at *
    linarith)
  have hs0 : |realOf p + realOf q| = realOf p + realOf q := abs_of_nonneg (by linarith)
  have hsb : |realOf (p.add q)| ≤ 4 * 2 ^ 1010 := by
    have h1 := abs_add_le (realOf (p.add q) - (realOf p + realOf q)) (realOf p + realOf q)
    rw [sub_add_cancel] at h1
    have h2 : 3 / 2 * (1 / 2 ^ 53) * |realOf p + realOf q| ≤ 1 * |realOf p + realOf q| := by gcongr; norm_num
    rw [hs0] at hs h1 h2
    clear e
    generalize (2 : ℝ) ^ 1010 = M at *
    linarith
  have ht := add_rel (p.add q) r (by
    have h1 := abs_add_le (realOf (p.add q)) (realOf r)
    rw [abs_of_nonneg z2] at h1
    rw [e]
    clear e
    generalize (2 : ℝ) ^ 1010 = M at *
    linarith)
  have := sum_error (ε := 1 / 2 ^ 53) (η := 1 / 2 ^ (c + 1)) (by positivity) (by norm_num) (by positivity) (sq_nonneg _) (sq_nonneg _) (sq_nonneg _) x1 y1 z1 hs ht
  refine this.trans (le_of_eq ?_)
  congr 1
  rw [hc, show 1074 + 1 = 1073 + 2 by norm_num, pow_add]
  generalize (2 : ℝ) ^ 1073 = P
  ring

/-- **C99.** The result is 0 only for points whose distance is at most `2^-536`. -/
theorem C99_zero (a b : Vec3) (ha : Within a) (hb : Within b) (h : realOf (distSquared a b) = 0) : exactDistance a b ≤ 1 / 2 ^ 1072 := by
  have := C99_accuracy a b ha hb
  rw [h, zero_sub, abs_neg] at this
  have h0 : 0 ≤ exactDistance a b := by unfold exactDistance; positivity
  rw [abs_of_nonneg h0] at this
  have e : (1 : ℝ) / 2 ^ 1072 = 2 * (1 / 2 ^ 1073) := by rw [show 1073 = 1072 + 1 by norm_num, pow_succ]; field_simp
  rw [e]
  have h2 : 8 * (1 / 2 ^ 53) * exactDistance a b ≤ 1 / 2 * exactDistance a b := by gcongr; norm_num
  generalize (1 : ℝ) / 2 ^ 1073 = M at *
  linarith

/-- Points `2^-540` apart have distance 0; points `2^512` apart have an infinite distance; (1, 2, 2) has 9 from the origin. -/
example : distSquared ⟨0x1e30000000000000#64, 0, 0⟩ ⟨0, 0, 0⟩ = 0 ∧ distSquared ⟨0x5ff0000000000000#64, 0, 0⟩ ⟨0, 0, 0⟩ = 0x7ff0000000000000#64 ∧
    distSquared ⟨0x3ff0000000000000#64, 0x4000000000000000#64, 0xc000000000000000#64⟩ ⟨0, 0, 0⟩ = 0x4022000000000000#64 := by
  decide +kernel

/-- The hypotheses can be met by points that are apart. -/
example : ∃ a b, Within a ∧ Within b ∧ FiniteVec a ∧ FiniteVec b ∧ exactDistance a b = 9 := by
  obtain ⟨x, hx, ex⟩ := int_exact 3 (by norm_num)
  have h3 : (3 : ℝ) ≤ 2 ^ 500 := (show (3 : ℝ) ≤ 2 ^ 2 by norm_num).trans (pow_le_pow_right₀ (by norm_num) (by norm_num))
  have h0 : (0 : ℝ) ≤ 2 ^ 500 := by positivity
  refine ⟨⟨x, 0, 0⟩, ⟨0, 0, 0⟩, ?_, ?_, ⟨hx, finite_zero, finite_zero⟩, ⟨finite_zero, finite_zero, finite_zero⟩, ?_⟩
  · simp only [Within, ex, realOf_zero]
    push_cast
    rw [abs_zero, abs_of_nonneg (by norm_num)]
    exact ⟨h3, h0, h0⟩
  · simp only [Within, realOf_zero, abs_zero]
    exact ⟨h0, h0, h0⟩
  · simp only [exactDistance, ex, realOf_zero]
    norm_num

end Pyogp
