import Verif.Props.Floats
import Verif.Proofs.Outcomes

/-! # C03: vectors of other lengths -/

namespace Pyogp
open Spec

theorem unpackNum_total {en : Endian} {tp : FloatFmt} {b : Bytes} (h : b.length = tp.size) : ∃ x, unpackNum en tp b = .ok x := by
  cases tp
  · exact unpackF32_total h
  · exact unpackF64_total h

theorem unpackNums_items {en : Endian} {tp : FloatFmt} : ∀ {n : Nat} {b : Bytes}, b.length = n * tp.size →
    ∃ xs : List F64, unpackNums en tp n b = .ok (xs.map .flt) ∧ xs.length = n ∧
      ∀ (i : Nat) (x : F64), xs[i]? = some x → unpackNum en tp (slice b (i * tp.size) (i * tp.size + tp.size)) = .ok x
  | 0, b, h => by
    have : b = [] := List.eq_nil_of_length_eq_zero (by simpa using h)
    subst this; exact ⟨[], rfl, rfl, by simp⟩
  | n + 1, b, h => by
    have e : (n + 1) * tp.size = n * tp.size + tp.size := by rw [Nat.add_mul, Nat.one_mul]
    have h1 : (b.take tp.size).length = tp.size := by rw [List.length_take, h, e]; omega
    have h2 : (b.drop tp.size).length = n * tp.size := by rw [List.length_drop, h, e]; omega
    obtain ⟨xs, hxs, hl, hi⟩ := unpackNums_items (en := en) h2
    obtain ⟨x, hx⟩ := unpackNum_total (en := en) h1
    refine ⟨x :: xs, by simp only [unpackNums, hx, ok_bind, hxs, List.map_cons], by simp [hl], ?_⟩
    intro i y hy
    cases i with
    | zero =>
      simp only [List.getElem?_cons_zero, Option.some.injEq] at hy
      subst hy
      simpa [slice] using hx
    | succ i =>
      simp only [List.getElem?_cons_succ] at hy
      have := hi i y hy
      rw [show slice b ((i + 1) * tp.size) ((i + 1) * tp.size + tp.size) = slice (b.drop tp.size) (i * tp.size) (i * tp.size + tp.size) by
        have e2 : (i + 1) * tp.size = tp.size + i * tp.size := by rw [Nat.add_mul, Nat.one_mul, Nat.add_comm]
        simp only [slice, List.drop_drop, e2]
        congr 1
        omega]
      exact this

theorem unpackNums_rest {en : Endian} {tp : FloatFmt} {r : Nat} (hr : r ≠ 0) : ∀ {n : Nat} {b : Bytes}, b.length = n * tp.size + r →
    unpackNums en tp n b = .error .structError
  | 0, b, h => by
    cases b with
    | nil => simp at h; omega
    | cons _ _ => rfl
  | n + 1, b, h => by
    have e : (n + 1) * tp.size = n * tp.size + tp.size := by rw [Nat.add_mul, Nat.one_mul]
    have h1 : (b.take tp.size).length = tp.size := by rw [List.length_take, h, e]; omega
    have h2 : (b.drop tp.size).length = n * tp.size + r := by rw [List.length_drop, h, e]; omega
    obtain ⟨x, hx⟩ := unpackNum_total (en := en) h1
    simp only [unpackNums, hx, ok_bind, unpackNums_rest hr h2]
    rfl

theorem unpackTuple_lengths (en : Endian) (tp : FloatFmt) (b : Bytes) :
    (b.length % tp.size = 0 → ∃ xs : List F64, unpackTuple en tp b = .ok (xs.map .flt) ∧ xs.length = b.length / tp.size ∧
      ∀ (i : Nat) (x : F64), xs[i]? = some x → unpackNum en tp (slice b (i * tp.size) (i * tp.size + tp.size)) = .ok x) ∧
    (b.length % tp.size ≠ 0 → unpackTuple en tp b = .error .structError) := by
  have h := Nat.div_add_mod b.length tp.size
  rw [Nat.mul_comm] at h
  constructor
  · intro h0
    exact unpackNums_items (by omega)
  · intro h0
    exact unpackNums_rest h0 h.symm

/-- **C03**, `Vector3d` and `Vector4` of any length: a string of whole components is unpacked to as many components as it has, one by one; any other string raises
`DataUnpackingError`. -/
theorem C03_tuple_lengths (rt : Runtime) (en? : Option Endian) (b : Bytes) (ty : MsgType) (w : Nat) (single : MsgType)
    (hty : ty = .vector3d ∧ w = 8 ∧ single = .f64 ∨ ty = .vector4 ∧ w = 4 ∧ single = .f32) :
    (b.length % w = 0 → ∃ xs : List F64, unpackData rt b ty none none en? = .ok (.tuple (xs.map .flt)) ∧ xs.length = b.length / w ∧
      ∀ (i : Nat) (x : F64), xs[i]? = some x → unpackData rt (slice b (i * w) (i * w + w)) single none none en? = .ok (.num (.flt x))) ∧
    (b.length % w ≠ 0 → unpackData rt b ty none none en? = .error .dataUnpacking) := by
  rcases hty with ⟨rfl, rfl, rfl⟩ | ⟨rfl, rfl, rfl⟩
  · obtain ⟨h1, h2⟩ := unpackTuple_lengths (en?.getD .little) .d b
    constructor
    · intro h
      obtain ⟨xs, e, hl, hi⟩ := h1 h
      refine ⟨xs, ?_, hl, ?_⟩
      · simp only [unpackData, unpackerTable, selectBytes, Codec.unpack, e]; rfl
      · intro i x hx
        have := hi i x hx
        simp only [unpackData, unpackerTable, selectBytes, Codec.unpack]
        simp only [FloatFmt.size] at this
        rw [this]; rfl
    · intro h
      simp only [unpackData, unpackerTable, selectBytes, Codec.unpack, h2 h]; rfl
  · obtain ⟨h1, h2⟩ := unpackTuple_lengths (en?.getD .little) .f b
    constructor
    · intro h
      obtain ⟨xs, e, hl, hi⟩ := h1 h
      refine ⟨xs, ?_, hl, ?_⟩
      · simp only [unpackData, unpackerTable, selectBytes, Codec.unpack, e]; rfl
      · intro i x hx
        have := hi i x hx
        simp only [unpackData, unpackerTable, selectBytes, Codec.unpack]
        simp only [FloatFmt.size] at this
        rw [this]; rfl
    · intro h
      simp only [unpackData, unpackerTable, selectBytes, Codec.unpack, h2 h]; rfl

theorem slice_take {b : Bytes} {i j n : Nat} (h : j ≤ n) : slice (b.take n) i j = slice b i j := by
  simp only [slice, List.drop_take, List.take_take]
  congr 1
  omega

theorem slice_length {b : Bytes} {i j : Nat} (h : j ≤ b.length) : (slice b i j).length = j - i := by
  simp only [slice, List.length_take, List.length_drop]; omega

theorem unpackF32_short {en : Endian} {b : Bytes} (h : b.length ≠ 4) : unpackF32 en b = .error .structError := by
  unfold unpackF32; rw [if_neg h]

/-- Three singles, or not. -/
theorem three_singles (b : Bytes) :
    (12 ≤ b.length → ∃ x y z, unpackF32 .little (slice b 0 4) = .ok x ∧ unpackF32 .little (slice b 4 8) = .ok y ∧ unpackF32 .little (slice b 8 12) = .ok z) ∧
    (b.length < 12 → ∀ {α : Type} (f : F64 → F64 → F64 → Py α), (do
      let x ← unpackF32 .little (slice b 0 4)
      let y ← unpackF32 .little (slice b 4 8)
      let z ← unpackF32 .little (slice b 8 12)
      f x y z) = .error .structError) := by
  constructor
  · intro h
    obtain ⟨x, hx⟩ := unpackF32_total (en := .little) (b := slice b 0 4) (by rw [slice_length (by omega)])
    obtain ⟨y, hy⟩ := unpackF32_total (en := .little) (b := slice b 4 8) (by rw [slice_length (by omega)])
    obtain ⟨z, hz⟩ := unpackF32_total (en := .little) (b := slice b 8 12) (by rw [slice_length (by omega)])
    exact ⟨x, y, z, hx, hy, hz⟩
  · intro h α f
    have hz : unpackF32 .little (slice b 8 12) = .error .structError := unpackF32_short (by
      simp only [slice, List.length_take, List.length_drop]; omega)
    have herr : ∀ i j, unpackF32 .little (slice b i j) = .error .structError ∨ ∃ x, unpackF32 .little (slice b i j) = .ok x := by
      intro i j
      by_cases hl : (slice b i j).length = 4
      · exact .inr (unpackF32_total hl)
      · exact .inl (unpackF32_short hl)
    rcases herr 0 4 with hx | ⟨x, hx⟩
    · rw [hx]; rfl
    · rcases herr 4 8 with hy | ⟨y, hy⟩
      · rw [hx, hy]; rfl
      · rw [hx, hy, hz]; rfl

/-- **C03**, `Vector3` and `Quaternion` of any length: bytes that are not needed are ignored; with less than 12 bytes `DataUnpackingError` is raised. -/
theorem C03_vector3_lengths (rt : Runtime) (en? : Option Endian) (b : Bytes) :
    (b.length < 12 → unpackData rt b .vector3 none none en? = .error .dataUnpacking ∧ unpackData rt b .quaternion none none en? = .error .dataUnpacking) ∧
    (12 ≤ b.length → (∃ x y z, unpackData rt b .vector3 none none en? = .ok (.vec3 x y z)) ∧
      unpackData rt b .vector3 none none en? = unpackData rt (b.take 12) .vector3) ∧
    (12 ≤ b.length → b.length < 16 → unpackData rt b .quaternion none none en? = unpackData rt (b.take 12) .quaternion) ∧
    (16 ≤ b.length → unpackData rt b .quaternion none none en? = unpackData rt (b.take 16) .quaternion) := by
  have e3 : ∀ en? b, unpackData rt b .vector3 none none en? = wrapStructError (vector3OfBytes b 0) := fun _ _ => rfl
  have e4 : ∀ en? b, unpackData rt b .quaternion none none en? = wrapStructError (quaternionOfBytes rt b 0) := fun _ _ => rfl
  obtain ⟨t1, t2⟩ := three_singles b
  refine ⟨fun h => ?_, fun h => ?_, fun h h' => ?_, fun h => ?_⟩
  · have a1 : vector3OfBytes b 0 = .error .structError := t2 h _
    have a2 : quaternionOfBytes rt b 0 = .error .structError := t2 h _
    rw [e3, e4, a1, a2]
    exact ⟨rfl, rfl⟩
  · obtain ⟨x, y, z, hx, hy, hz⟩ := t1 h
    have a1 : vector3OfBytes b 0 = .ok (.vec3 x y z) := by
      simp only [vector3OfBytes, Nat.zero_add, hx, hy, hz]; rfl
    refine ⟨⟨x, y, z, by rw [e3, a1]; rfl⟩, ?_⟩
    rw [e3, e3]
    simp only [vector3OfBytes, Nat.zero_add]
    rw [slice_take (by omega), slice_take (by omega), slice_take (by omega)]
  · rw [e4, e4]
    simp only [quaternionOfBytes, Nat.zero_add]
    rw [slice_take (by omega), slice_take (by omega), slice_take (by omega)]
    have q1 : unpackF32 .little (slice b 12 16) = .error .structError := unpackF32_short (by
      simp only [slice, List.length_take, List.length_drop]; omega)
    have q2 : unpackF32 .little (slice (b.take 12) 12 16) = .error .structError := unpackF32_short (by
      simp only [slice, List.length_take, List.length_drop]; omega)
    rw [q1, q2]
  · rw [e4, e4]
    simp only [quaternionOfBytes, Nat.zero_add]
    rw [slice_take (by omega), slice_take (by omega), slice_take (by omega), slice_take (by omega)]

/-- Two singles are a "Vector4" of two components; five bytes are none. -/
example : unpackData ⟨.v27, fun _ _ _ => 0⟩ [0, 0, 128, 63, 0, 0, 0, 64] .vector4 =
    .ok (.tuple [.flt 0x3ff0000000000000#64, .flt 0x4000000000000000#64]) ∧
    unpackData ⟨.v27, fun _ _ _ => 0⟩ [0, 0, 128, 63, 0] .vector4 = .error .dataUnpacking := by
  decide +kernel

end Pyogp
