import Verif.Proofs.IeeeReal
import Verif.Proofs.Field
import Verif.Props.Rounding

/-!
# C08 on the wire

Quaternions of doubles, packed to 12 bytes of singles and unpacked with the IEEE operations of `Model/Ieee.lean`: bit patterns throughout, so overflow
and subnormal numbers are included.
-/

namespace Pyogp
open Spec

theorem neg_bits (x : F64) : x.neg.toNat / 2 ^ 63 = x.toNat / 2 ^ 63 ^^^ 1 ∧ x.neg.toNat % 2 ^ 63 = x.toNat % 2 ^ 63 := by
  have h : x.neg.toNat = x.toNat ^^^ 2 ^ 63 := by
    unfold F64.neg
    rw [BitVec.toNat_xor, BitVec.toNat_ofNat]
    rfl
  rw [h, Nat.xor_div_two_pow, Nat.xor_mod_two_pow]
  refine ⟨rfl, ?_⟩
  simp

theorem realOf_neg (x : F64) : realOf x.neg = -realOf x ∧ (IsFinite x → IsFinite x.neg) := by
  obtain ⟨h1, h2⟩ := neg_bits x
  have hlt := x.isLt
  have hlt' := x.neg.isLt
  have e1 : x.neg.toNat / 2 ^ 52 % 2 ^ 11 = x.toNat / 2 ^ 52 % 2 ^ 11 := by omega
  have e2 : x.neg.toNat % 2 ^ 52 = x.toNat % 2 ^ 52 := by omega
  have hm : mag64 x.neg.toNat = mag64 x.toNat := by unfold mag64; rw [e1, e2]
  have hn : neg64 x.neg.toNat = !neg64 x.toNat := by
    unfold neg64
    rw [h1]
    have : x.toNat / 2 ^ 63 = 0 ∨ x.toNat / 2 ^ 63 = 1 := by omega
    rcases this with h | h <;> rw [h] <;> rfl
  refine ⟨?_, ?_⟩
  · unfold realOf
    rw [hm, hn]
    cases neg64 x.toNat
    · simp [neg_div]
    · simp [neg_div]
  · unfold IsFinite Finite64
    rw [e1]
    exact id

theorem mag64_zero_iff (n : Nat) : mag64 n = 0 ↔ n / 2 ^ 52 % 2 ^ 11 = 0 ∧ n % 2 ^ 52 = 0 := by
  unfold mag64
  by_cases h : n / 2 ^ 52 % 2 ^ 11 = 0
  · rw [if_pos h]; omega
  · rw [if_neg h]
    have : 0 < (2 ^ 52 + n % 2 ^ 52) * 2 ^ (n / 2 ^ 52 % 2 ^ 11 - 1) := Nat.mul_pos (by omega) (Nat.two_pow_pos _)
    omega

theorem nonneg_iff (x : F64) (hx : IsFinite x) : x.nonneg = true ↔ 0 ≤ realOf x := by
  have hlt := x.isLt
  have hz := mag64_zero_iff x.toNat
  have hx' : ¬ (x.toNat / 2 ^ 52 % 2 ^ 11 = 2047 ∧ x.toNat % 2 ^ 52 ≠ 0) := fun h => hx h.1
  have e : x.nonneg = (decide (x.toNat < 2 ^ 63) || (decide (x.toNat / 2 ^ 52 % 2 ^ 11 = 0) && decide (x.toNat % 2 ^ 52 = 0))) := by
    unfold F64.nonneg
    simp only
    rw [if_neg hx']
  rw [e]
  simp only [Bool.or_eq_true, Bool.and_eq_true, decide_eq_true_eq]
  rw [← hz]
  unfold realOf neg64
  have hm0 : (0 : ℝ) ≤ (mag64 x.toNat : ℝ) := Nat.cast_nonneg _
  by_cases hs : x.toNat < 2 ^ 63
  · have : ¬ x.toNat / 2 ^ 63 % 2 = 1 := by omega
    simp only [hs, true_or, this, decide_false, Bool.false_eq_true, if_false, true_iff]
    positivity
  · have : x.toNat / 2 ^ 63 % 2 = 1 := by omega
    simp only [hs, false_or, this, decide_true, if_true]
    constructor
    · intro h; rw [h]; simp
    · intro h
      have h2 : (0 : ℝ) < 2 ^ 1074 := by positivity
      generalize (2 : ℝ) ^ 1074 = P at *
      have h3 : 0 ≤ -(mag64 x.toNat : ℝ) := by
        by_contra hc
        have := div_neg_of_neg_of_pos (not_le.mp hc) h2
        linarith
      have h4 : (mag64 x.toNat : ℝ) = 0 := by linarith
      exact_mod_cast h4

theorem abs_realOf (x : F64) {c : Nat} (hc : c = 1074) : |realOf x| = (mag64 x.toNat : ℝ) / 2 ^ c := by
  unfold realOf
  rw [hc, abs_div, abs_of_pos (by positivity : (0 : ℝ) < 2 ^ 1074)]
  by_cases h : neg64 x.toNat = true
  · rw [if_pos h, abs_neg, Nat.abs_cast]
  · rw [if_neg h, Nat.abs_cast]

/-- Rounding to single of a double below 2. -/
theorem single_real (x : F64) (h : |realOf x| < 2) :
    ∃ y, single (.flt x) = some y ∧ IsFinite y ∧ |realOf y - realOf x| ≤ 1 / 2 ^ 24 := by
  obtain ⟨c, hc⟩ : ∃ c, c = 1074 := ⟨_, rfl⟩
  have he : x.toNat / 2 ^ 52 % 2 ^ 11 ≤ 1023 := by
    rw [abs_realOf x hc, div_lt_iff₀ (by positivity)] at h
    by_contra hn
    have h1 : 2 ^ (c + 1) ≤ mag64 x.toNat := by
      unfold mag64
      rw [if_neg (by omega)]
      refine Nat.le_trans ?_ (Nat.mul_le_mul_right _ (Nat.le_add_right (2 ^ 52) _))
      rw [← Nat.pow_add]
      exact Nat.pow_le_pow_right (by decide) (by omega)
    have h2 : ((2 ^ (c + 1) : Nat) : ℝ) ≤ mag64 x.toNat := by exact_mod_cast h1
    push_cast at h2
    rw [pow_succ] at h2
    linarith
  obtain ⟨f, h1, h2, h3, h4, h5, h6⟩ := narrow_close x.isLt he
  obtain ⟨w1, w2, w3⟩ := widen_exact h2 h3
  have hN : (BitVec.ofNat 64 (widenBits f)).toNat = widenBits f := by
    rw [BitVec.toNat_ofNat, Nat.mod_eq_of_lt (widenBits_lt h2)]
  refine ⟨BitVec.ofNat 64 (widenBits f), ?_, ?_, ?_⟩
  · show toSingle x = _
    unfold toSingle
    rw [h1]
    rfl
  · unfold IsFinite; rw [hN]; exact w1
  · have ey : realOf (BitVec.ofNat 64 (widenBits f)) = (if neg64 x.toNat then -(mag32 f : ℝ) else (mag32 f : ℝ)) / 2 ^ 1074 := by
      unfold realOf
      rw [hN, w2, w3, h4]
    rw [show (1051 : Nat) = c - 23 by omega] at h5 h6
    obtain ⟨b, rfl⟩ : ∃ b, c = b + 23 := ⟨c - 23, by omega⟩
    rw [Nat.add_sub_cancel] at h5 h6
    have h5' : 2 * (mag32 f : ℝ) ≤ 2 * (mag64 x.toNat : ℝ) + 2 ^ b := by exact_mod_cast h5
    have h6' : 2 * (mag64 x.toNat : ℝ) ≤ 2 * (mag32 f : ℝ) + 2 ^ b := by exact_mod_cast h6
    have hP : (2 : ℝ) ^ 1074 = 2 ^ b * 2 ^ 23 := by rw [← pow_add, hc]
    have hb : (0 : ℝ) < 2 ^ b := by positivity
    rw [ey]
    unfold realOf
    rw [hP]
    generalize (2 : ℝ) ^ b = B at *
    generalize (mag32 f : ℝ) = p at *
    generalize (mag64 x.toNat : ℝ) = q at *
    have fin : ∀ a : ℝ, |a| ≤ B / 2 → |a / (B * 2 ^ 23)| ≤ 1 / 2 ^ 24 := by
      intro a ha
      have hBB : 0 < B * 2 ^ 23 := by positivity
      rw [abs_div, abs_of_pos hBB, div_le_div_iff₀ hBB (by positivity)]
      linarith
    by_cases hs : neg64 x.toNat = true
    · rw [if_pos hs, if_pos hs, ← sub_div]
      refine fin _ ?_
      rw [abs_le]; constructor <;> linarith
    · rw [if_neg hs, if_neg hs, ← sub_div]
      refine fin _ ?_
      rw [abs_le]; constructor <;> linarith

theorem realOf_one : realOf 0x3ff0000000000000#64 = 1 := by
  obtain ⟨c, hc⟩ : ∃ c, c = 1074 := ⟨_, rfl⟩
  have h1 : F64.units 0x3ff0000000000000#64 = 2 ^ c := by
    rw [hc]; decide +kernel
  rw [realOf_units _ hc, h1]
  push_cast
  exact div_self (by positivity)

theorem realOf_zero : realOf 0 = 0 := by
  have h : mag64 (0 : F64).toNat = 0 := by decide +kernel
  unfold realOf
  rw [h]
  simp

/-- The rest computed in doubles. -/
theorem rest_real (x y z : F64) (hx : realOf x * realOf x + realOf y * realOf y + realOf z * realOf z ≤ 3 / 2) :
    IsFinite (F64.sub 0x3ff0000000000000#64 (F64.add (F64.add (F64.mul x x) (F64.mul y y)) (F64.mul z z))) ∧
    |realOf (F64.sub 0x3ff0000000000000#64 (F64.add (F64.add (F64.mul x x) (F64.mul y y)) (F64.mul z z))) -
      (1 - (realOf x * realOf x + realOf y * realOf y + realOf z * realOf z))| ≤ 6 * (1 / 2 ^ 50) := by
  have hxx := mul_self_nonneg (realOf x)
  have hyy := mul_self_nonneg (realOf y)
  have hzz := mul_self_nonneg (realOf z)
  have a1 := abs_le.mp (mul_real x x (by rw [abs_le]; constructor <;> linarith)).2
  have a2 := abs_le.mp (mul_real y y (by rw [abs_le]; constructor <;> linarith)).2
  have a3 := abs_le.mp (mul_real z z (by rw [abs_le]; constructor <;> linarith)).2
  generalize x.mul x = xx at *
  generalize y.mul y = yy at *
  generalize z.mul z = zz at *
  have a4 := abs_le.mp (add_real xx yy (by rw [abs_le]; constructor <;> linarith)).2
  generalize xx.add yy = s at *
  have a5 := abs_le.mp (add_real s zz (by rw [abs_le]; constructor <;> linarith)).2
  generalize s.add zz = t at *
  have h6 := sub_real 0x3ff0000000000000#64 t (by rw [realOf_one, abs_le]; constructor <;> linarith)
  rw [realOf_one] at h6
  refine ⟨h6.1, ?_⟩
  have a6 := abs_le.mp h6.2
  rw [abs_le]
  constructor <;> linarith

/-- What is received for components within `δ ≤ 2⁻⁶` of those of a quaternion that is a unit up to `η ≤ 2⁻⁶`. -/
theorem ieeeQuatW_close (δ η : ℝ) (hδ0 : 0 ≤ δ) (hδ : δ ≤ 1 / 64) (hη : η ≤ 1 / 64) (x y z w : ℝ) (x' y' z' : F64)
    (hx : |realOf x' - x| ≤ δ) (hy : |realOf y' - y| ≤ δ) (hz : |realOf z' - z| ≤ δ) (hu : |x * x + y * y + z * z + w * w - 1| ≤ η) :
    0 ≤ realOf (ieeeQuatW x' y' z') ∧ |realOf (ieeeQuatW x' y' z') ^ 2 - w ^ 2| ≤ η + 4 * δ + 9 * (1 / 2 ^ 50) := by
  have hpos : ∀ t : F64, 0 < t.units ↔ 0 < realOf t := by
    intro t
    obtain ⟨c, hc⟩ : ∃ c, c = 1074 := ⟨_, rfl⟩
    rw [realOf_units t hc]
    constructor
    · intro h
      have : (0 : ℝ) < t.units := by exact_mod_cast h
      positivity
    · intro h
      by_contra hc
      have h2 : (t.units : ℝ) ≤ 0 := by exact_mod_cast not_lt.mp hc
      have := div_nonpos_of_nonpos_of_nonneg h2 (by positivity : (0 : ℝ) ≤ 2 ^ c)
      linarith
  refine W_close δ (1 / 2 ^ 50) η hδ0 hδ (by positivity) (by norm_num) hη x y z w (realOf x') (realOf y') (realOf z') _ _ hx hy hz hu
    (fun h => (rest_real x' y' z' h).2) ?_ ?_
  · intro h0 h1
    unfold ieeeQuatW
    simp only
    rw [if_pos ((hpos _).mpr h0)]
    exact (sqrt_real _ h0 h1).2
  · intro h0
    unfold ieeeQuatW
    simp only
    rw [if_neg (fun h => absurd ((hpos _).mp h) (not_lt.mpr h0))]
    exact realOf_zero

/-- **C08, on the wire.** A quaternion of finite doubles that is a unit up to `η ≤ 2⁻⁶` packs to 12 bytes, and unpacking them yields the quaternion or, if
`W` is negative, its negation: `X`, `Y`, `Z` within `2⁻²⁴`, and a `W ≥ 0` whose square is within `η + 2⁻²¹` of the square of the original. (That `X`, `Y`, `Z` are finite follows from the bound.) -/
theorem C08_wire (ver : PyVersion) (x y z w : F64) (hw : IsFinite w) (η : ℝ) (hη : η ≤ 1 / 64)
    (hu : |realOf x * realOf x + realOf y * realOf y + realOf z * realOf z + realOf w * realOf w - 1| ≤ η) :
    ∃ b x' y' z' w', packData ⟨ver, ieeeQuatW⟩ (.quat x y z w) .quaternion = .ok b ∧ b.length = 12 ∧
      unpackData ⟨ver, ieeeQuatW⟩ b .quaternion = .ok (.quat x' y' z' w') ∧
      ((0 ≤ realOf w ∧ |realOf x' - realOf x| ≤ 1 / 2 ^ 24 ∧ |realOf y' - realOf y| ≤ 1 / 2 ^ 24 ∧ |realOf z' - realOf z| ≤ 1 / 2 ^ 24) ∨
       (realOf w < 0 ∧ |realOf x' - -realOf x| ≤ 1 / 2 ^ 24 ∧ |realOf y' - -realOf y| ≤ 1 / 2 ^ 24 ∧ |realOf z' - -realOf z| ≤ 1 / 2 ^ 24)) ∧
      0 ≤ realOf w' ∧ |realOf w' ^ 2 - realOf w ^ 2| ≤ η + 1 / 2 ^ 21 := by
  have hu' := abs_le.mp hu
  have hxx := mul_self_nonneg (realOf x)
  have hyy := mul_self_nonneg (realOf y)
  have hzz := mul_self_nonneg (realOf z)
  have hww := mul_self_nonneg (realOf w)
  have bound : ∀ v : ℝ, v * v < 4 → |v| < 2 := by
    intro v hv
    rw [abs_lt]
    constructor <;> nlinarith
  have key : ∀ a b c : F64, realOf a * realOf a = realOf x * realOf x → realOf b * realOf b = realOf y * realOf y →
      realOf c * realOf c = realOf z * realOf z →
      packQuatToVec3 [.flt x, .flt y, .flt z, .flt w] = .ok [.flt a, .flt b, .flt c] →
      ∃ p x' y' z' w', packData ⟨ver, ieeeQuatW⟩ (.quat x y z w) .quaternion = .ok p ∧ p.length = 12 ∧
        unpackData ⟨ver, ieeeQuatW⟩ p .quaternion = .ok (.quat x' y' z' w') ∧
        (|realOf x' - realOf a| ≤ 1 / 2 ^ 24 ∧ |realOf y' - realOf b| ≤ 1 / 2 ^ 24 ∧ |realOf z' - realOf c| ≤ 1 / 2 ^ 24) ∧
        0 ≤ realOf w' ∧ |realOf w' ^ 2 - realOf w ^ 2| ≤ η + 1 / 2 ^ 21 := by
    intro a b c ea eb ec hpk
    obtain ⟨a', sa, -, ca⟩ := single_real a (bound _ (by rw [ea]; linarith))
    obtain ⟨b', sb, -, cb⟩ := single_real b (bound _ (by rw [eb]; linarith))
    obtain ⟨c', sc, -, cc⟩ := single_real c (bound _ (by rw [ec]; linarith))
    obtain ⟨p, hp⟩ := packTuple_of_each (en := .little) (tp := .f) (ns := [.flt a, .flt b, .flt c]) (by
      intro n hn
      simp only [List.mem_cons, List.not_mem_nil, or_false] at hn
      rcases hn with rfl | rfl | rfl
      · exact packNum_f_of_single sa
      · exact packNum_f_of_single sb
      · exact packNum_f_of_single sc)
    obtain ⟨hl, x1, y1, z1, e1, e2, e3, u1, u2, u3⟩ := packTuple3 hp
    rw [sa] at e1; rw [sb] at e2; rw [sc] at e3
    cases e1; cases e2; cases e3
    have hW := ieeeQuatW_close (1 / 2 ^ 24) η (by positivity) (by norm_num) hη (realOf a) (realOf b) (realOf c) (realOf w) a' b' c' ca cb cc
      (by rw [ea, eb, ec]; exact hu)
    refine ⟨p, a', b', c', ieeeQuatW a' b' c', ?_, hl, ?_, ⟨ca, cb, cc⟩, hW.1, hW.2.trans ?_⟩
    · simp only [packData, packerTable, Codec.pack, Option.getD_none, hpk]
      exact hp
    · have h4 : unpackF32 .little (slice p (0 + 12) (0 + 16)) = .error .structError := by
        unfold unpackF32
        rw [if_neg]
        have : (slice p (0 + 12) (0 + 16)).length = 0 := by simp [slice, hl]
        omega
      simp only [unpackData, unpackerTable, selectBytes, Codec.unpack, quaternionOfBytes, u1, u2, u3, h4]
      rfl
    · norm_num
      linarith
  have hidx : packQuatToVec3 [.flt x, .flt y, .flt z, .flt w] =
      if w.nonneg then .ok [.flt x, .flt y, .flt z] else .ok [.flt x.neg, .flt y.neg, .flt z.neg] := rfl
  rcases lt_or_ge (realOf w) 0 with hw0 | hw0
  · have hn : ¬ w.nonneg = true := fun h => absurd ((nonneg_iff w hw).mp h) (not_le.mpr hw0)
    have ex := (realOf_neg x).1
    have ey := (realOf_neg y).1
    have ez := (realOf_neg z).1
    obtain ⟨p, x', y', z', w', h1, h2, h3, h4, h5, h6⟩ := key x.neg y.neg z.neg (by rw [ex]; ring) (by rw [ey]; ring) (by rw [ez]; ring)
      (by rw [hidx, if_neg hn])
    rw [ex, ey, ez] at h4
    exact ⟨p, x', y', z', w', h1, h2, h3, .inr ⟨hw0, h4⟩, h5, h6⟩
  · obtain ⟨p, x', y', z', w', h1, h2, h3, h4, h5, h6⟩ := key x y z rfl rfl rfl (by rw [hidx, if_pos ((nonneg_iff w hw).mpr hw0)])
    exact ⟨p, x', y', z', w', h1, h2, h3, .inl ⟨hw0, h4⟩, h5, h6⟩

theorem unit_of_units (x y z w : F64) {c : Nat} (hc : c = 1074) (k : Nat)
    (h : |x.units * x.units + y.units * y.units + z.units * z.units + w.units * w.units - 2 ^ (2 * c)| * 2 ^ k ≤ 2 ^ (2 * c)) :
    |realOf x * realOf x + realOf y * realOf y + realOf z * realOf z + realOf w * realOf w - 1| ≤ 1 / 2 ^ k := by
  rw [realOf_units x hc, realOf_units y hc, realOf_units z hc, realOf_units w hc]
  have e : (x.units : ℝ) / 2 ^ c * (x.units / 2 ^ c) + y.units / 2 ^ c * (y.units / 2 ^ c) + z.units / 2 ^ c * (z.units / 2 ^ c) +
      w.units / 2 ^ c * (w.units / 2 ^ c) - 1 =
      (x.units * x.units + y.units * y.units + z.units * z.units + w.units * w.units - 2 ^ (2 * c)) / 2 ^ (2 * c) := by
    rw [two_mul, pow_add]
    field_simp
  rw [e, abs_div, abs_of_pos (by positivity : (0 : ℝ) < 2 ^ (2 * c)), div_le_div_iff₀ (by positivity) (by positivity), one_mul]
  exact_mod_cast h

/-- The hypotheses are met by the doubles nearest to (0, 0.6, 0, -0.8), a unit only up to rounding and not singles. -/
example : IsFinite 0xbfe999999999999a#64 ∧
    |realOf 0 * realOf 0 + realOf 0x3fe3333333333333#64 * realOf 0x3fe3333333333333#64 + realOf 0 * realOf 0 +
      realOf 0xbfe999999999999a#64 * realOf 0xbfe999999999999a#64 - 1| ≤ 1 / 2 ^ 50 := by
  refine ⟨by unfold IsFinite Finite64; decide +kernel, ?_⟩
  exact unit_of_units 0 0x3fe3333333333333#64 0 0xbfe999999999999a#64 rfl 50 (by decide +kernel)

end Pyogp
