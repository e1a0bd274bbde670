import Verif.Proofs.IeeeRound
import Verif.Props.Floats
import Verif.Props.QuatWire
import Verif.Props.Datatypes

/-!
# C03, C08, C73: numbers are rounded as IEEE-754 prescribes

`Nearest r x` (`Spec/IeeeReal.lean`): `x` is the double nearest to the real number `r`, ties to even.
-/

namespace Pyogp
open Spec

/-- `float(i)` is defined up to here: half-way between the largest double and `2^1024`. -/
def TooLarge (i : Int) : Prop := 2 ^ 1024 - 2 ^ 970 ≤ i.natAbs

theorem tooLarge_iff (i : Int) : intToF64 i = none ↔ TooLarge i := by
  rw [(intToF64_spec i).2]
  unfold TooLarge
  rw [show 2 ^ 1024 - 2 ^ 970 = (2 ^ 54 - 1) * 2 ^ 970 by decide +kernel]

/-- **C03, integers in double fields.** An integer given for an F64 field raises `struct.error` exactly if it is too large for a double; otherwise the 8 bytes of the
nearest double are sent, and received as that double. -/
theorem C03_int_f64 (rt : Runtime) (en? : Option Endian) (i : Int) :
    (TooLarge i → packData rt (.num (.int i)) .f64 en? = .error .structError) ∧
    (¬ TooLarge i → ∃ x b, Nearest i x ∧ packData rt (.num (.int i)) .f64 en? = .ok b ∧ IsDigits 8 (en?.getD .little) x.toNat b ∧
      unpackData rt b .f64 none none en? = .ok (.num (.flt x))) := by
  constructor
  · intro h
    simp only [packData, packerTable, Codec.pack, packNum, Num.toF64, (tooLarge_iff i).mpr h]
    rfl
  · intro h
    cases hx : intToF64 i with
    | none => exact absurd ((tooLarge_iff i).mp hx) h
    | some x =>
      obtain ⟨b, h1, h2, h3⟩ := C03_f64_value rt en? x
      refine ⟨x, b, (intToF64_spec i).1 x hx, ?_, h2, h3⟩
      rw [← h1]
      simp only [packData, packerTable, Codec.pack, packNum, Num.toF64, hx]

/-- **C03, integers in single fields.** An integer is rounded to a double first, then to a single like that double (`C03_f32_rounding`). -/
theorem C03_int_f32 (rt : Runtime) (en? : Option Endian) (i : Int) :
    (TooLarge i → packData rt (.num (.int i)) .f32 en? = .error .structError) ∧
    (¬ TooLarge i → ∃ x, Nearest i x ∧ packData rt (.num (.int i)) .f32 en? = packData rt (.num (.flt x)) .f32 en?) := by
  constructor
  · intro h
    simp only [packData, packerTable, Codec.pack, packNum, Num.toF64, (tooLarge_iff i).mpr h]
    rfl
  · intro h
    cases hx : intToF64 i with
    | none => exact absurd ((tooLarge_iff i).mp hx) h
    | some x =>
      refine ⟨x, (intToF64_spec i).1 x hx, ?_⟩
      simp only [packData, packerTable, Codec.pack, packNum, Num.toF64, hx]

/-- `i` is the real number `r` truncated towards zero. -/
def TowardsZero (r : ℝ) (i : Int) : Prop := (0 ≤ r → (i : ℝ) ≤ r ∧ r < i + 1) ∧ (r ≤ 0 → (i : ℝ) - 1 < r ∧ r ≤ i)

theorem wholePart_spec {x : F64} (hf : IsFinite x) : ∃ i, wholePart x = some i ∧ TowardsZero (realOf x) i := by
  unfold IsFinite Finite64 at hf
  unfold wholePart
  rw [if_neg hf]
  refine ⟨_, rfl, ?_⟩
  obtain ⟨c, hc⟩ : ∃ c, c = 1074 := ⟨_, rfl⟩
  have hr : realOf x = (if neg64 x.toNat then -(mag64 x.toNat : ℝ) else (mag64 x.toNat : ℝ)) / 2 ^ c := by rw [hc]; rfl
  rw [hr, ← hc]
  have hp : (0 : ℝ) < 2 ^ c := by positivity
  have hpn := Nat.two_pow_pos c
  have h1 : ((mag64 x.toNat / 2 ^ c : Nat) : ℝ) ≤ (mag64 x.toNat : ℝ) / 2 ^ c := by
    rw [le_div_iff₀ hp]
    exact_mod_cast Nat.div_mul_le_self _ _
  have h2 : (mag64 x.toNat : ℝ) / 2 ^ c < ((mag64 x.toNat / 2 ^ c : Nat) : ℝ) + 1 := by
    rw [div_lt_iff₀ hp]
    exact_mod_cast Nat.lt_mul_of_div_lt (Nat.lt_succ_self _) hpn |>.trans_eq rfl
  have h3 : (0 : ℝ) ≤ (mag64 x.toNat : ℝ) / 2 ^ c := by positivity
  have h4 : (0 : ℝ) ≤ ((mag64 x.toNat / 2 ^ c : Nat) : ℝ) := Nat.cast_nonneg _
  have h5 : (mag64 x.toNat : ℝ) / 2 ^ c ≤ 0 → ((mag64 x.toNat / 2 ^ c : Nat) : ℝ) = 0 := by
    intro h
    linarith [le_antisymm (h1.trans h) h4]
  by_cases hn : neg64 x.toNat = true
  · rw [if_pos hn, if_pos hn, neg_div]
    generalize (mag64 x.toNat : ℝ) / 2 ^ c = r at *
    generalize mag64 x.toNat / 2 ^ c = k at *
    have hk : ((-(k : Int) : Int) : ℝ) = -(k : ℝ) := by push_cast; rfl
    constructor
    · intro h
      have := h5 (by linarith)
      rw [hk, this]
      constructor <;> linarith
    · intro h
      rw [hk]
      constructor <;> linarith
  · rw [if_neg hn, if_neg hn]
    generalize (mag64 x.toNat : ℝ) / 2 ^ c = r at *
    generalize mag64 x.toNat / 2 ^ c = k at *
    have hk : (((k : Int) : Int) : ℝ) = (k : ℝ) := Int.cast_natCast k
    constructor
    · intro h
      rw [hk]
      constructor <;> linarith
    · intro h
      have := h5 (by linarith)
      rw [hk, this]
      constructor <;> linarith

/-- **C01, floats in integer fields.** A finite float is truncated towards zero.  If the integer is in range the float is packed like it; if not, Python 2.7
raises `struct.error`, and Python 2.6 raises `OverflowError` or packs it like the integer (see `C01_int_out_of_range`).  Infinities and NaN are rejected. -/
theorem C01_float (rt : Runtime) (ty : MsgType) (n : Nat) (s : Bool) (d : Endian) (h : wireInt ty = some (n, s, d)) (en? : Option Endian) (x : F64) :
    (IsFinite x → ∃ i, TowardsZero (realOf x) i ∧
      (InRange n s i → packData rt (.num (.flt x)) ty en? = packData rt (.num (.int i)) ty en?) ∧
      (¬ InRange n s i → rt.ver = .v27 → packData rt (.num (.flt x)) ty en? = .error .structError) ∧
      (¬ InRange n s i → rt.ver = .v26 → packData rt (.num (.flt x)) ty en? = .error .overflowError ∨
        n ≠ 8 ∧ packData rt (.num (.flt x)) ty en? = packData rt (.num (.int i)) ty en?)) ∧
    (¬ IsFinite x → packData rt (.num (.flt x)) ty en? =
      .error (if x.toNat % 2 ^ 52 ≠ 0 then .valueError else if rt.ver = .v27 then .structError else .overflowError)) := by
  obtain ⟨f, hp, hu, rfl, rfl, hs⟩ := table_of_wireInt h
  have hpk : ∀ m, packData rt (.num m) ty en? = packIntVal rt.ver (en?.getD d) f (.num m) := by
    intro m
    unfold packData
    rw [hp]
    rfl
  constructor
  · intro hf
    obtain ⟨i, hw, hi⟩ := wholePart_spec hf
    refine ⟨i, hi, ?_, ?_, ?_⟩
    · intro hr
      rw [hpk, hpk, packIntVal_whole _ _ _ (show asInteger (.flt x) = some i from hw) hr]
      rfl
    · intro hr hv
      rw [inRange_iff] at hr
      rw [hpk, hv]
      simp only [packIntVal, packTruncated, truncF64_whole, hw, structPack, if_neg hr]
    · intro hr hv
      rw [inRange_iff] at hr
      rw [hpk, hpk, hv]
      simp only [packIntVal, packTruncated, truncF64_whole, hw]
      split
      · exact .inl rfl
      · rename_i hno
        refine .inr ⟨fun h8 => hno (.inl ⟨h8, hr⟩), rfl⟩
  · intro hf
    unfold IsFinite Finite64 at hf
    have he : x.toNat / 2 ^ 52 % 2 ^ 11 = 2047 := by_contra hf
    rw [hpk]
    have hw : wholePart x = none := by unfold wholePart; rw [if_pos he]
    simp only [packIntVal, packTruncated, truncF64_whole, hw, F64.isNaN, he]
    generalize x.toNat % 2 ^ 52 = m
    by_cases hm : m = 0
    · cases rt.ver <;> simp [hm]
    · simp [hm]

/-- The truncation is unique. -/
theorem towardsZero_unique {r : ℝ} {i j : Int} (hi : TowardsZero r i) (hj : TowardsZero r j) : i = j := by
  rcases le_total 0 r with h | h
  · have a := hi.1 h
    have b := hj.1 h
    have c : i < j + 1 := by exact_mod_cast lt_of_le_of_lt a.1 b.2
    have d : j < i + 1 := by exact_mod_cast lt_of_le_of_lt b.1 a.2
    omega
  · have a := hi.2 h
    have b := hj.2 h
    have c : i - 1 < j := by exact_mod_cast lt_of_lt_of_le a.1 b.2
    have d : j - 1 < i := by exact_mod_cast lt_of_lt_of_le b.1 a.2
    omega

/-- The result of `float(v)` on a component. -/
inductive FloatOf (pf : Bytes → Option F64) : PyVal → Py F64 → Prop
  | flt (x : F64) : FloatOf pf (.num (.flt x)) (.ok x)
  | int (i : Int) (x : F64) : ¬ TooLarge i → Nearest i x → FloatOf pf (.num (.int i)) (.ok x)
  | large (i : Int) : TooLarge i → FloatOf pf (.num (.int i)) (.error .overflowError)
  | str (s : Bytes) (x : F64) : pf s = some x → FloatOf pf (.str s) (.ok x)
  | badStr (s : Bytes) : pf s = none → FloatOf pf (.str s) (.error .valueError)
  | unicode (s : Bytes) (x : F64) : pf s = some x → FloatOf pf (.unicode s) (.ok x)
  | badUnicode (s : Bytes) : pf s = none → FloatOf pf (.unicode s) (.error .valueError)
  | none : FloatOf pf .none (.error .typeError)
  | uuid (u : BitVec 128) : FloatOf pf (.uuid u) (.error .typeError)
  | tuple (ns : List Num) : FloatOf pf (.tuple ns) (.error .typeError)
  | vec3 (x y z : F64) : FloatOf pf (.vec3 x y z) (.error .typeError)
  | quat (x y z w : F64) : FloatOf pf (.quat x y z w) (.error .typeError)

/-- A component is given as a Python value, not as a value of an LLSD document. -/
def NotLlsd : PyVal → Prop
  | .llsd _ => False
  | _ => True

theorem pyFloat_spec (pf : Bytes → Option F64) (v : PyVal) (h : NotLlsd v) : FloatOf pf v (pyFloat pf v) := by
  unfold pyFloat
  cases v with
  | num n =>
    cases n with
    | flt x => exact .flt x
    | int i =>
      simp only
      cases hx : intToF64 i with
      | none => exact .large i ((tooLarge_iff i).mp hx)
      | some x => exact .int i x (fun hl => by rw [(tooLarge_iff i).mpr hl] at hx; cases hx) ((intToF64_spec i).1 x hx)
  | str s =>
    simp only
    cases hx : pf s with
    | none => exact .badStr s hx
    | some x => exact .str s x hx
  | unicode s =>
    simp only
    cases hx : pf s with
    | none => exact .badUnicode s hx
    | some x => exact .unicode s x hx
  | llsd v => exact absurd h id
  | none => exact .none
  | uuid u => exact .uuid u
  | tuple ns => exact .tuple ns
  | vec3 x y z => exact .vec3 x y z
  | quat x y z w => exact .quat x y z w

/-- **C73, from components.** `Vector3(X=…, Y=…, Z=…)` holds `float` of each component, integers rounded to the nearest double; the first component without a
float raises its exception (`OverflowError` of integers that are too large, `ValueError` of text, `TypeError` of `None` and other objects). -/
theorem C73_from_components (pf : Bytes → Option F64) (off : Nat) (X Y Z : PyVal) (hX : NotLlsd X) (hY : NotLlsd Y) (hZ : NotLlsd Z) :
    ∃ x y z, FloatOf pf X x ∧ FloatOf pf Y y ∧ FloatOf pf Z z ∧
      ((∃ a b c, x = .ok a ∧ y = .ok b ∧ z = .ok c ∧ vec3New pf none off X Y Z = .ok ⟨a, b, c⟩) ∨
       (∃ e, x = .error e ∧ vec3New pf none off X Y Z = .error e) ∨
       (∃ a e, x = .ok a ∧ y = .error e ∧ vec3New pf none off X Y Z = .error e) ∨
       (∃ a b e, x = .ok a ∧ y = .ok b ∧ z = .error e ∧ vec3New pf none off X Y Z = .error e)) := by
  refine ⟨_, _, _, pyFloat_spec pf X hX, pyFloat_spec pf Y hY, pyFloat_spec pf Z hZ, ?_⟩
  unfold vec3New
  simp only
  cases pyFloat pf X with
  | error e => exact .inr (.inl ⟨e, rfl, rfl⟩)
  | ok a =>
    cases pyFloat pf Y with
    | error e => exact .inr (.inr (.inl ⟨a, e, rfl, rfl, rfl⟩))
    | ok b =>
      cases pyFloat pf Z with
      | error e => exact .inr (.inr (.inr ⟨a, b, e, rfl, rfl, rfl, rfl⟩))
      | ok c => exact .inl ⟨a, b, c, rfl, rfl, rfl, rfl⟩

/-- A single read from the wire, if finite, is below `2^128`. -/
theorem unpackF32_bound {b : Bytes} {x : F64} (h : unpackF32 .little b = .ok x) (hf : IsFinite x) : |realOf x| ≤ 2 ^ 128 := by
  obtain ⟨c, hc⟩ : ∃ c, c = 1074 := ⟨_, rfl⟩
  unfold unpackF32 at h
  by_cases hl : b.length = 4
  · rw [if_pos hl] at h
    have hx := (Except.ok.inj h).symm
    have hlt : leVal (Endian.little.order b) < 2 ^ 32 := by
      have := leVal_lt (Endian.little.order b)
      rwa [show (Endian.little.order b).length = 4 from hl] at this
    generalize leVal (Endian.little.order b) = f at *
    have hN : x.toNat = widenBits f := by
      rw [hx, BitVec.toNat_ofNat, Nat.mod_eq_of_lt (widenBits_lt hlt)]
    have hfin : Finite32 f := by
      intro he
      apply hf
      rw [hN]
      unfold widenBits
      simp only [he, if_true]
      split <;> omega
    obtain ⟨-, -, w3⟩ := widen_exact hlt hfin
    rw [abs_realOf x hc, hN, w3, div_le_iff₀ (by positivity), ← pow_add]
    have : mag32 f ≤ 2 ^ (128 + c) := by
      obtain ⟨d, hd⟩ : ∃ d, d = 925 := ⟨_, rfl⟩
      unfold mag32 Finite32 at *
      rw [← hd]
      have hm : f % 2 ^ 23 < 2 ^ 23 := Nat.mod_lt _ (by decide)
      generalize f % 2 ^ 23 = m at *
      have he : f / 2 ^ 23 % 2 ^ 8 < 255 := by omega
      generalize f / 2 ^ 23 % 2 ^ 8 = e at *
      have h1 : (if e = 0 then m else (2 ^ 23 + m) * 2 ^ (e - 1)) ≤ 2 ^ (24 + 253) := by
        split
        · exact Nat.le_trans (Nat.le_of_lt hm) (Nat.pow_le_pow_right (by decide) (by omega))
        · rw [Nat.pow_add]
          exact Nat.mul_le_mul (by omega) (Nat.pow_le_pow_right (by decide) (by omega))
      have := Nat.mul_le_mul_right (2 ^ d) h1
      rw [← Nat.pow_add] at this
      exact Nat.le_trans this (Nat.pow_le_pow_right (by decide) (by omega))
    exact_mod_cast this
  · rw [if_neg hl] at h
    cases h

theorem nearest_bound {r : ℝ} {x : F64} (h : Nearest r x) : |realOf x| ≤ 2 * |r| := by
  have := (h.2 0 (by unfold IsFinite Finite64; decide)).1
  rw [realOf_zero, zero_sub, abs_neg] at this
  calc |realOf x| = |(realOf x - r) + r| := by rw [sub_add_cancel]
    _ ≤ |realOf x - r| + |r| := abs_add_le _ _
    _ ≤ 2 * |r| := by linarith

/-- **C08, the reconstructed component.** Of a quaternion field of 12 bytes, `W` is computed from `X`, `Y`, `Z` (finite singles) with each of the operations
`X*X`, `Y*Y`, `Z*Z`, the two sums, the difference and the square root rounded to the nearest double; it is 0 if the difference is not positive. -/
theorem C08_reconstructed_w (ver : PyVersion) (b : Bytes) (hb : b.length = 12) (x y z w : F64)
    (h : unpackData ⟨ver, ieeeQuatW⟩ b .quaternion = .ok (.quat x y z w)) (hx : IsFinite x) (hy : IsFinite y) (hz : IsFinite z) :
    ∃ xx yy zz s s' t, Nearest (realOf x * realOf x) xx ∧ Nearest (realOf y * realOf y) yy ∧ Nearest (realOf z * realOf z) zz ∧
      Nearest (realOf xx + realOf yy) s ∧ Nearest (realOf s + realOf zz) s' ∧ Nearest (1 - realOf s') t ∧
      (0 < realOf t → Nearest (Real.sqrt (realOf t)) w) ∧ (realOf t ≤ 0 → realOf w = 0) := by
  have hq : quaternionOfBytes ⟨ver, ieeeQuatW⟩ b 0 = .ok (.quat x y z w) := by
    simp only [unpackData, unpackerTable, selectBytes, Codec.unpack] at h
    unfold wrapStructError at h
    split at h
    · cases h
    · exact h
  unfold quaternionOfBytes at hq
  obtain ⟨x', hx', hq⟩ := bind_ok.mp hq
  obtain ⟨y', hy', hq⟩ := bind_ok.mp hq
  obtain ⟨z', hz', hq⟩ := bind_ok.mp hq
  have h4 : unpackF32 .little (slice b (0 + 12) (0 + 16)) = .error .structError := by
    unfold unpackF32
    rw [if_neg]
    have : (slice b (0 + 12) (0 + 16)).length = 0 := by simp [slice, hb]
    omega
  rw [h4] at hq
  cases hq
  have bx := unpackF32_bound hx' hx
  have bY := unpackF32_bound hy' hy
  have bz := unpackF32_bound hz' hz
  clear hx' hy' hz' h4
  have sq : ∀ v : ℝ, |v| ≤ 2 ^ 128 → |v * v| ≤ 2 ^ 256 := by
    intro v hv
    rw [abs_mul, show (2 : ℝ) ^ 256 = 2 ^ 128 * 2 ^ 128 by rw [← pow_add]]
    exact mul_le_mul hv hv (abs_nonneg _) (by positivity)
  have sx := sq _ bx
  have sy := sq _ bY
  have sz := sq _ bz
  have big : 64 * (2 : ℝ) ^ 256 ≤ 2 ^ 1000 ∧ 64 * (2 : ℝ) ^ 256 ≤ 2 ^ 1023 ∧ (1 : ℝ) ≤ 2 ^ 256 := by
    have e : 64 * (2 : ℝ) ^ 256 = 2 ^ 262 := by rw [show 262 = 6 + 256 from rfl, pow_add]; norm_num
    rw [e]
    exact ⟨pow_le_pow_right₀ (by norm_num) (by norm_num), pow_le_pow_right₀ (by norm_num) (by norm_num), one_le_pow₀ (by norm_num)⟩
  obtain ⟨big1, big2, big3⟩ := big
  clear sq bx bY bz
  have lim : ∀ r : ℝ, |r| ≤ 64 * 2 ^ 256 → |r| ≤ 2 ^ 1023 := fun r hr => hr.trans big2
  generalize (2 : ℝ) ^ 256 = P at *
  have a1 := mul_nearest x x (lim _ (by linarith))
  have a2 := mul_nearest y y (lim _ (by linarith))
  have a3 := mul_nearest z z (lim _ (by linarith))
  have b1 := nearest_bound a1
  have b2 := nearest_bound a2
  have b3 := nearest_bound a3
  refine ⟨_, _, _, F64.add (x.mul x) (y.mul y), F64.add (F64.add (x.mul x) (y.mul y)) (z.mul z),
    F64.sub 0x3ff0000000000000#64 (F64.add (F64.add (F64.mul x x) (F64.mul y y)) (F64.mul z z)), a1, a2, a3, ?_⟩
  have hW : ieeeQuatW x y z = if 0 < (F64.sub 0x3ff0000000000000#64 (F64.add (F64.add (F64.mul x x) (F64.mul y y)) (F64.mul z z))).units then
    F64.sqrt (F64.sub 0x3ff0000000000000#64 (F64.add (F64.add (F64.mul x x) (F64.mul y y)) (F64.mul z z))) else 0 := rfl
  show _ ∧ _ ∧ _ ∧ (_ → Nearest _ (ieeeQuatW x y z)) ∧ (_ → realOf (ieeeQuatW x y z) = 0)
  rw [hW]
  generalize x.mul x = xx at *
  generalize y.mul y = yy at *
  generalize z.mul z = zz at *
  have c1 := abs_add_le (realOf xx) (realOf yy)
  have a4 := add_nearest xx yy (lim _ (by linarith))
  have b4 := nearest_bound a4
  generalize xx.add yy = s at *
  have c2 := abs_add_le (realOf s) (realOf zz)
  have a5 := add_nearest s zz (lim _ (by linarith))
  have b5 := nearest_bound a5
  generalize s.add zz = s' at *
  have c3 : |1 - realOf s'| ≤ 1 + |realOf s'| := by
    have := abs_sub (1 : ℝ) (realOf s')
    rwa [abs_one] at this
  have a6 := sub_nearest 0x3ff0000000000000#64 s' (lim _ (by rw [realOf_one]; linarith))
  rw [realOf_one] at a6
  have b6 := nearest_bound a6
  generalize F64.sub 0x3ff0000000000000#64 s' = t at *
  have hpos : 0 < t.units ↔ 0 < realOf t := by
    obtain ⟨c, hc⟩ : ∃ c, c = 1074 := ⟨_, rfl⟩
    rw [realOf_units t hc]
    have hp : (0 : ℝ) < 2 ^ c := by positivity
    rw [lt_div_iff₀ hp, zero_mul]
    exact_mod_cast Iff.rfl
  refine ⟨a4, a5, a6, ?_, ?_⟩
  · intro h0
    rw [if_pos (hpos.mpr h0)]
    exact (sqrt_nearest t h0 (le_trans (by clear big1 big2 lim; have := le_abs_self (realOf t); linarith) big1)).1
  · intro h0
    rw [if_neg (fun hh => absurd (hpos.mp hh) (not_lt.mpr h0))]
    exact realOf_zero

/-! ## Concrete cases -/

/-- `2^53 + 1` is half-way between two doubles; the even one, `2^53`, is sent.  `10^400` is too large. -/
example : intToF64 (2 ^ 53 + 1) = some 0x4340000000000000#64 ∧ intToF64 (2 ^ 53 + 3) = some 0x4340000000000002#64 ∧ ¬ TooLarge (2 ^ 53 + 1) ∧ TooLarge (10 ^ 400) := by
  unfold TooLarge
  decide +kernel

/-- -3.75 in an S8 field is sent as -3; 300.5 does not fit a U8: Python 2.7 rejects it, Python 2.6 sends 44. -/
example : packData ⟨.v27, fun _ _ _ => 0⟩ (.num (.flt 0xc00e000000000000#64)) .s8 = .ok [0xfd] ∧
    packData ⟨.v27, fun _ _ _ => 0⟩ (.num (.flt 0x4072c80000000000#64)) .u8 = .error .structError ∧
    packData ⟨.v26, fun _ _ _ => 0⟩ (.num (.flt 0x4072c80000000000#64)) .u8 = .ok [44] ∧
    packData ⟨.v26, fun _ _ _ => 0⟩ (.num (.flt 0x7ff8000000000000#64)) .u8 = .error .valueError := by
  refine ⟨?_, ?_, ?_, ?_⟩ <;> decide +kernel

/-- (0.5, 0.5, 0.5) as singles: `W` is exactly 0.5. -/
example : unpackData ⟨.v26, ieeeQuatW⟩ [0, 0, 0, 0x3f, 0, 0, 0, 0x3f, 0, 0, 0, 0x3f] .quaternion =
    .ok (.quat 0x3fe0000000000000#64 0x3fe0000000000000#64 0x3fe0000000000000#64 0x3fe0000000000000#64) ∧
    IsFinite 0x3fe0000000000000#64 := by
  have hq : ieeeQuatW 0x3fe0000000000000#64 0x3fe0000000000000#64 0x3fe0000000000000#64 = 0x3fe0000000000000#64 := by decide +kernel
  refine ⟨?_, by unfold IsFinite Finite64; decide⟩
  have : ∀ W, unpackData ⟨.v26, W⟩ [0, 0, 0, 0x3f, 0, 0, 0, 0x3f, 0, 0, 0, 0x3f] .quaternion =
    .ok (.quat 0x3fe0000000000000#64 0x3fe0000000000000#64 0x3fe0000000000000#64
      (W 0x3fe0000000000000#64 0x3fe0000000000000#64 0x3fe0000000000000#64)) := fun _ => rfl
  rw [this, hq]

end Pyogp
