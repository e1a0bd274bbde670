import Verif.Model.Datatypes
import Verif.Proofs.Field
import Verif.Proofs.Float
import Verif.Proofs.Util
import Verif.Proofs.Trim
import Verif.Props.Uuids

/-!
# Vectors, quaternions and UUIDs as objects (C73, C74, C75, C76)
-/

namespace Pyogp
open Spec

/-! ## C73 -/

theorem slice_mid (pre b post : Bytes) (i j : Nat) (hj : j ≤ b.length) : slice (pre ++ b ++ post) (pre.length + i) (pre.length + j) = slice b i j := by
  unfold slice
  rw [List.append_assoc, List.drop_append, List.drop_of_length_le (by omega), List.nil_append, Nat.add_sub_cancel_left,
    show pre.length + j - (pre.length + i) = j - i by omega]
  by_cases h : i ≤ j
  · rw [List.drop_append, List.take_append_of_le_length (by rw [List.length_drop]; omega)]
  · rw [show j - i = 0 by omega]; simp

theorem four {b : Bytes} (h : b.length = 4) : ∃ a c d e, b = [a, c, d, e] := by
  match b, h with
  | [a, c, d, e], _ => exact ⟨a, c, d, e, rfl⟩

theorem slices {b1 b2 b3 : Bytes} (rest : Bytes) (l1 : b1.length = 4) (l2 : b2.length = 4) (l3 : b3.length = 4) :
    slice (b1 ++ (b2 ++ (b3 ++ rest))) 0 4 = b1 ∧ slice (b1 ++ (b2 ++ (b3 ++ rest))) 4 8 = b2 ∧ slice (b1 ++ (b2 ++ (b3 ++ rest))) 8 12 = b3 ∧
    slice (b1 ++ (b2 ++ (b3 ++ rest))) 12 16 = rest.take 4 := by
  obtain ⟨_, _, _, _, rfl⟩ := four l1
  obtain ⟨_, _, _, _, rfl⟩ := four l2
  obtain ⟨_, _, _, _, rfl⟩ := four l3
  exact ⟨rfl, rfl, rfl, rfl⟩

/-- The class and the field decoder of the message layer read the same vector. -/
theorem vec3Read_field (b : Bytes) (off : Nat) :
    vector3OfBytes b off = (match vec3Read b off with | .ok v => .ok (.vec3 v.X v.Y v.Z) | .error e => .error e) := by
  unfold vector3OfBytes vec3Read
  cases unpackF32 .little (slice b off (off + 4)) <;> try rfl
  cases unpackF32 .little (slice b (off + 4) (off + 8)) <;> try rfl
  cases unpackF32 .little (slice b (off + 8) (off + 12)) <;> rfl

theorem packNum_overflow {x : F64} (h : toSingle x = none) : packNum .little .f (.flt x) = .error .overflowError := by
  show packF32 .little x = _
  unfold toSingle at h
  unfold packF32
  cases hn : narrowBits x.toNat with
  | none => rfl
  | some n => rw [hn] at h; cases h

theorem packNum_single {x y : F64} (h : toSingle x = some y) :
    ∃ b, packNum .little .f (.flt x) = .ok b ∧ b.length = 4 ∧ unpackF32 .little b = .ok y := by
  obtain ⟨b, hb⟩ := packNum_f_of_single (en := .little) (n := .flt x) (y := y) h
  obtain ⟨h1, y', h2, h3⟩ := unpackNum_packNum_f hb
  have : some y' = some y := h2.symm.trans h
  cases this
  exact ⟨b, hb, h1, h3⟩

/-- **C73, encode then decode.** `get_bytes` of a vector whose components are in the range of singles yields 12 bytes, from which a vector with the
components rounded to singles is read back, wherever the bytes stand in a buffer. -/
theorem C73_bytes_roundtrip (pf : Bytes → Option F64) (v : Vec3) (x y z : F64) (hx : toSingle v.X = some x) (hy : toSingle v.Y = some y)
    (hz : toSingle v.Z = some z) :
    ∃ b, v.getBytes = .ok b ∧ b.length = 12 ∧
      ∀ pre post X Y Z, vec3New pf (some (pre ++ b ++ post)) pre.length X Y Z = .ok ⟨x, y, z⟩ := by
  obtain ⟨b1, p1, l1, u1⟩ := packNum_single hx
  obtain ⟨b2, p2, l2, u2⟩ := packNum_single hy
  obtain ⟨b3, p3, l3, u3⟩ := packNum_single hz
  refine ⟨b1 ++ (b2 ++ (b3 ++ [])), ?_, by simp [l1, l2, l3], ?_⟩
  · unfold Vec3.getBytes
    simp only [packTuple, p1, p2, p3]; rfl
  · intro pre post X Y Z
    show vec3Read _ _ = _
    have hl : (b1 ++ (b2 ++ (b3 ++ []))).length = 12 := by simp [l1, l2, l3]
    have s1 := slice_mid pre (b1 ++ (b2 ++ (b3 ++ []))) post 0 4 (by omega)
    have s2 := slice_mid pre (b1 ++ (b2 ++ (b3 ++ []))) post 4 8 (by omega)
    have s3 := slice_mid pre (b1 ++ (b2 ++ (b3 ++ []))) post 8 12 (by omega)
    obtain ⟨t1, t2, t3, -⟩ := slices [] l1 l2 l3
    unfold vec3Read
    rw [Nat.add_zero] at s1
    rw [s1, s2, s3, t1, t2, t3, u1, u2, u3]
    rfl

/-- **C73, overflow.** If a component is too large for a single `get_bytes` raises `OverflowError`. -/
theorem C73_overflow (v : Vec3) (h : toSingle v.X = none ∨ toSingle v.Y = none ∨ toSingle v.Z = none) :
    v.getBytes = .error .overflowError := by
  unfold Vec3.getBytes
  simp only [packTuple]
  cases hx : toSingle v.X with
  | none => rw [packNum_overflow hx]; rfl
  | some x =>
    obtain ⟨b1, p1, -, -⟩ := packNum_single hx
    rw [p1]
    cases hy : toSingle v.Y with
    | none => rw [packNum_overflow hy]; rfl
    | some y =>
      obtain ⟨b2, p2, -, -⟩ := packNum_single hy
      rw [p2]
      cases hz : toSingle v.Z with
      | none => rw [packNum_overflow hz]; rfl
      | some z => rcases h with h | h | h <;> simp_all

/-- No NaN among the singles in the bytes. -/
def NoNaN (b : Bytes) : Prop := ∀ i, 4 * i + 4 ≤ b.length → ¬ isNaN32 (leVal (slice b (4 * i) (4 * i + 4)))

/-- **C73, decode then encode.** Twelve bytes that hold no NaN are read as a vector whose `get_bytes` are the same twelve bytes. -/
theorem C73_bytes_back (pf : Bytes → Option F64) (pre b post : Bytes) (hb : b.length = 12) (hn : NoNaN b) (X Y Z : PyVal) :
    ∃ v, vec3New pf (some (pre ++ b ++ post)) pre.length X Y Z = .ok v ∧ v.getBytes = .ok b := by
  have l : ∀ i, 4 * i + 4 ≤ 12 → (slice b (4 * i) (4 * i + 4)).length = 4 := by
    intro i hi; simp [slice, hb]; omega
  obtain ⟨x, ux, px⟩ := packF32_unpackF32 .little (slice b 0 4) (l 0 (by omega)) (hn 0 (by omega))
  obtain ⟨y, uy, py⟩ := packF32_unpackF32 .little (slice b 4 8) (l 1 (by omega)) (hn 1 (by omega))
  obtain ⟨z, uz, pz⟩ := packF32_unpackF32 .little (slice b 8 12) (l 2 (by omega)) (hn 2 (by omega))
  have s1 := slice_mid pre b post 0 4 (by omega)
  have s2 := slice_mid pre b post 4 8 (by omega)
  have s3 := slice_mid pre b post 8 12 (by omega)
  rw [Nat.add_zero] at s1
  refine ⟨⟨x, y, z⟩, ?_, ?_⟩
  · show vec3Read _ _ = _
    unfold vec3Read
    rw [s1, s2, s3, ux, uy, uz]
    rfl
  · unfold Vec3.getBytes
    have e : ∀ w : F64, packNum .little .f (.flt w) = packF32 .little w := fun _ => rfl
    simp only [packTuple, e, px, py, pz]
    show Except.ok (slice b 0 4 ++ (slice b 4 8 ++ (slice b 8 12 ++ []))) = _
    congr 1
    match b, hb with
    | [_, _, _, _, _, _, _, _, _, _, _, _], _ => rfl

/-- **C73, short buffers.** Fewer than twelve bytes from the offset on: `struct.error`. -/
theorem C73_short (pf : Bytes → Option F64) (b : Bytes) (off : Nat) (h : b.length < off + 12) (X Y Z : PyVal) :
    vec3New pf (some b) off X Y Z = .error .structError := by
  show vec3Read b off = _
  unfold vec3Read
  have hl : ∀ i j, (slice b (off + i) (off + j)).length = min (j - i) (b.length - (off + i)) := by
    intro i j; simp [slice]; omega
  have key : ∀ i, i + 4 ≤ 12 → unpackF32 .little (slice b (off + i) (off + (i + 4))) = .error .structError ∨
      ∃ x, unpackF32 .little (slice b (off + i) (off + (i + 4))) = .ok x ∧ off + i + 4 ≤ b.length := by
    intro i hi
    unfold unpackF32
    by_cases h4 : (slice b (off + i) (off + (i + 4))).length = 4
    · rw [if_pos h4]; exact .inr ⟨_, rfl, by rw [hl] at h4; omega⟩
    · rw [if_neg h4]; exact .inl rfl
  rcases key 0 (by omega) with e | ⟨x, e, -⟩ <;> simp only [Nat.add_zero, Nat.zero_add] at e <;> rw [e]
  · rfl
  rcases key 4 (by omega) with e | ⟨y, e, -⟩ <;> simp only [Nat.reduceAdd] at e <;> rw [e]
  · rfl
  rcases key 8 (by omega) with e | ⟨z, e, hz⟩ <;> simp only [Nat.reduceAdd] at e <;> rw [e]
  · rfl
  omega

/-- **C73, copy.** A copy has the same components, bit for bit (also NaN and `-0.0`). -/
theorem C73_copy (rt : Runtime) (pf : Bytes → Option F64) (v : Vec3) (q : Quat) : v.copy pf = .ok v ∧ q.copy rt pf = .ok q := ⟨rfl, rfl⟩

example : toSingle 0x3fb999999999999a#64 = some 0x3fb99999a0000000#64 ∧ toSingle 0x47f0000000000000#64 = none ∧
    (Vec3.getBytes ⟨0x3fb999999999999a#64, 0, 0⟩) = .ok [0xcd, 0xcc, 0xcc, 0x3d, 0, 0, 0, 0, 0, 0, 0, 0] := by
  refine ⟨by decide +kernel, by decide +kernel, by decide +kernel⟩

example : NoNaN [0xcd, 0xcc, 0xcc, 0x3d, 0, 0, 0, 0, 0, 0, 0x80, 0x7f] := by
  intro i hi
  have : i = 0 ∨ i = 1 ∨ i = 2 := by simp at hi; omega
  rcases this with rfl | rfl | rfl <;> decide +kernel

/-! ## C74 -/

/-- The class and the field decoder of the message layer read the same quaternion. -/
theorem quatRead_field (rt : Runtime) (b : Bytes) (off : Nat) (n : Int) :
    quaternionOfBytes rt b off = (match quatRead rt b off n with | .ok q => .ok (.quat q.X q.Y q.Z q.W) | .error e => .error e) := by
  unfold quaternionOfBytes quatRead
  cases unpackF32 .little (slice b off (off + 4)) <;> try rfl
  cases unpackF32 .little (slice b (off + 4) (off + 8)) <;> try rfl
  cases unpackF32 .little (slice b (off + 8) (off + 12)) <;> try rfl
  cases h : unpackF32 .little (slice b (off + 12) (off + 16)) <;> simp [bind, Except.bind]

/-- **C74, messages.** The message layer reads a quaternion field like the class does: `unpack_data` of a byte string and `Quaternion(bytes)` yield the same four
components, also if the string has sixteen bytes; where the class raises `struct.error`, `unpack_data` raises `DataUnpackingError`. -/
theorem C74_field (rt : Runtime) (pf : Bytes → Option F64) (b : Bytes) (n : Int) (X Y Z W : PyVal) :
    (∀ q, quatNew rt pf (some b) 0 n X Y Z W = .ok q → unpackData rt b .quaternion = .ok (.quat q.X q.Y q.Z q.W)) ∧
    (quatNew rt pf (some b) 0 n X Y Z W = .error .structError → unpackData rt b .quaternion = .error .dataUnpacking) := by
  have h : unpackData rt b .quaternion = wrapStructError (quaternionOfBytes rt b 0) := rfl
  rw [h, quatRead_field rt b 0 n]
  show (∀ q, quatRead rt b 0 n = .ok q → _) ∧ (quatRead rt b 0 n = _ → _)
  constructor
  · intro q hq; rw [hq]; rfl
  · intro hq; rw [hq]; rfl

/-- **C73, messages.** The same for `Vector3(bytes)` and vector fields. -/
theorem C73_field (rt : Runtime) (pf : Bytes → Option F64) (b : Bytes) (X Y Z : PyVal) :
    (∀ v, vec3New pf (some b) 0 X Y Z = .ok v → unpackData rt b .vector3 = .ok (.vec3 v.X v.Y v.Z)) ∧
    (vec3New pf (some b) 0 X Y Z = .error .structError → unpackData rt b .vector3 = .error .dataUnpacking) := by
  have h : unpackData rt b .vector3 = wrapStructError (vector3OfBytes b 0) := rfl
  rw [h]
  show (∀ v, vec3Read b 0 = .ok v → _) ∧ (vec3Read b 0 = _ → _)
  unfold vec3Read vector3OfBytes
  cases unpackF32 .little (slice b 0 (0 + 4)) with
  | error e => exact ⟨(fun v hv => by cases hv), fun hv => by cases hv; rfl⟩
  | ok x =>
    cases unpackF32 .little (slice b (0 + 4) (0 + 8)) with
    | error e => exact ⟨(fun v hv => by cases hv), fun hv => by cases hv; rfl⟩
    | ok y =>
      cases unpackF32 .little (slice b (0 + 8) (0 + 12)) with
      | error e => exact ⟨(fun v hv => by cases hv), fun hv => by cases hv; rfl⟩
      | ok z => exact ⟨(fun v hv => by cases hv; rfl), fun hv => by cases hv⟩

/-- **C74, sixteen bytes.** If at least sixteen bytes follow the offset, `W` is read from them. -/
theorem C74_reads_w (rt : Runtime) (pf : Bytes → Option F64) (q : Quat) (x y z w : F64) (hx : toSingle q.X = some x) (hy : toSingle q.Y = some y)
    (hz : toSingle q.Z = some z) (hw : toSingle q.W = some w) :
    ∃ b, q.getBytes = .ok b ∧ b.length = 16 ∧
      ∀ pre post n X Y Z W, quatNew rt pf (some (pre ++ b ++ post)) pre.length n X Y Z W = .ok ⟨x, y, z, w⟩ := by
  obtain ⟨b1, p1, l1, u1⟩ := packNum_single hx
  obtain ⟨b2, p2, l2, u2⟩ := packNum_single hy
  obtain ⟨b3, p3, l3, u3⟩ := packNum_single hz
  obtain ⟨b4, p4, l4, u4⟩ := packNum_single hw
  have hl : (b1 ++ (b2 ++ (b3 ++ (b4 ++ [])))).length = 16 := by simp [l1, l2, l3, l4]
  refine ⟨b1 ++ (b2 ++ (b3 ++ (b4 ++ []))), ?_, hl, ?_⟩
  · unfold Quat.getBytes
    simp only [packTuple, p1, p2, p3, p4]; rfl
  · intro pre post n X Y Z W
    show quatRead rt _ _ n = _
    have s1 := slice_mid pre (b1 ++ (b2 ++ (b3 ++ (b4 ++ [])))) post 0 4 (by omega)
    have s2 := slice_mid pre (b1 ++ (b2 ++ (b3 ++ (b4 ++ [])))) post 4 8 (by omega)
    have s3 := slice_mid pre (b1 ++ (b2 ++ (b3 ++ (b4 ++ [])))) post 8 12 (by omega)
    have s4 := slice_mid pre (b1 ++ (b2 ++ (b3 ++ (b4 ++ [])))) post 12 16 (by omega)
    obtain ⟨t1, t2, t3, t4⟩ := slices (b4 ++ []) l1 l2 l3
    rw [List.append_nil, List.take_of_length_le (by omega)] at t4
    unfold quatRead
    rw [Nat.add_zero] at s1
    simp only [List.append_nil] at s1 s2 s3 s4 t1 t2 t3 t4 ⊢
    rw [s1, s2, s3, s4, t1, t2, t3, t4, u1, u2, u3, u4]
    rfl

/-- **C74, twelve bytes at the end of the buffer.** If the buffer ends with twelve to fifteen bytes after the offset, `W` is reconstructed. -/
theorem C74_reconstructs_w (rt : Runtime) (pf : Bytes → Option F64) (v : Vec3) (b : Bytes) (hv : v.getBytes = .ok b) (pre post : Bytes)
    (hp : post.length < 4) (n : Int) (X Y Z W : PyVal) :
    ∃ x y z, toSingle v.X = some x ∧ toSingle v.Y = some y ∧ toSingle v.Z = some z ∧
      quatNew rt pf (some (pre ++ b ++ post)) pre.length n X Y Z W = .ok ⟨x, y, z, rt.quatW x y z⟩ := by
  cases hx : toSingle v.X with
  | none => rw [C73_overflow v (.inl hx)] at hv; cases hv
  | some x =>
  cases hy : toSingle v.Y with
  | none => rw [C73_overflow v (.inr (.inl hy))] at hv; cases hv
  | some y =>
  cases hz : toSingle v.Z with
  | none => rw [C73_overflow v (.inr (.inr hz))] at hv; cases hv
  | some z =>
  refine ⟨x, y, z, rfl, rfl, rfl, ?_⟩
  obtain ⟨b', hb', hl, hread⟩ := C73_bytes_roundtrip pf v x y z hx hy hz
  rw [hv] at hb'
  cases hb'
  have h3 := hread pre post X Y Z
  have h4 : unpackF32 .little (slice (pre ++ b ++ post) (pre.length + 12) (pre.length + 16)) = .error .structError := by
    unfold unpackF32
    rw [if_neg]
    simp [slice, hl]
    omega
  show quatRead rt _ _ n = _
  have h3' : vec3Read (pre ++ b ++ post) pre.length = .ok ⟨x, y, z⟩ := h3
  unfold vec3Read at h3'
  unfold quatRead
  simp only [bind_ok] at h3'
  obtain ⟨x', e1, y', e2, z', e3, e4⟩ := h3'
  cases e4
  rw [e1, e2, e3, h4]
  rfl

/-- **C74, consequence:** the argument `length` is ignored, so a quaternion of twelve bytes is misread when anything follows it in the buffer: the next four
bytes become its `W`. -/
theorem C74_length_ignored (rt : Runtime) (pf : Bytes → Option F64) (v : Vec3) (b next : Bytes) (hv : v.getBytes = .ok b) (hn : next.length = 4)
    (w : F64) (hw : unpackF32 .little next = .ok w) (pre post : Bytes) (n : Int) (X Y Z W : PyVal) :
    ∃ x y z, toSingle v.X = some x ∧ toSingle v.Y = some y ∧ toSingle v.Z = some z ∧
      quatNew rt pf (some (pre ++ b ++ (next ++ post))) pre.length n X Y Z W = .ok ⟨x, y, z, w⟩ := by
  cases hx : toSingle v.X with
  | none => rw [C73_overflow v (.inl hx)] at hv; cases hv
  | some x =>
  cases hy : toSingle v.Y with
  | none => rw [C73_overflow v (.inr (.inl hy))] at hv; cases hv
  | some y =>
  cases hz : toSingle v.Z with
  | none => rw [C73_overflow v (.inr (.inr hz))] at hv; cases hv
  | some z =>
  refine ⟨x, y, z, rfl, rfl, rfl, ?_⟩
  obtain ⟨b', hb', hl, hread⟩ := C73_bytes_roundtrip pf v x y z hx hy hz
  rw [hv] at hb'
  cases hb'
  have h4 : slice (pre ++ b ++ (next ++ post)) (pre.length + 12) (pre.length + 16) = next := by
    simp only [slice]
    rw [List.append_assoc, List.drop_append, List.drop_of_length_le (by omega), List.drop_append, List.drop_of_length_le (by omega),
      show pre.length + 12 - pre.length - b.length = 0 by omega, show pre.length + 16 - (pre.length + 12) = next.length by omega]
    simp
  show quatRead rt _ _ n = _
  have h3' : vec3Read (pre ++ b ++ (next ++ post)) pre.length = .ok ⟨x, y, z⟩ := hread pre (next ++ post) X Y Z
  unfold vec3Read at h3'
  unfold quatRead
  simp only [bind_ok] at h3'
  obtain ⟨x', e1, y', e2, z', e3, e4⟩ := h3'
  cases e4
  rw [e1, e2, e3, h4, hw]
  rfl

example : (Vec3.getBytes ⟨0, 0, 0⟩) = .ok (List.replicate 12 0) ∧ unpackF32 .little [0, 0, 0x80, 0x3f] = .ok 0x3ff0000000000000#64 := by
  refine ⟨by decide +kernel, by decide +kernel⟩

/-! ## C75 -/

theorem splitChar_ne_nil (c : Char) (s : List Char) : splitChar c s ≠ [] := by
  cases s with
  | nil => intro h; cases h
  | cons x s =>
    unfold splitChar
    by_cases h : x = c
    · rw [if_pos h]; intro h'; cases h'
    · rw [if_neg h]; cases splitChar c s <;> (intro h'; cases h')

theorem splitChar_length (c : Char) (s : List Char) : (splitChar c s).length = s.count c + 1 := by
  induction s with
  | nil => rfl
  | cons x s ih =>
    unfold splitChar
    by_cases h : x = c
    · rw [if_pos h, List.length_cons, ih, h, List.count_cons_self]
    · rw [if_neg h, List.count_cons_of_ne h]
      cases hs : splitChar c s with
      | nil => exact absurd hs (splitChar_ne_nil c s)
      | cons f fs => rw [hs] at ih; exact ih

theorem splitChar_field (c : Char) : ∀ (a rest : List Char), c ∉ a → splitChar c (a ++ c :: rest) = a :: splitChar c rest
  | [], rest, _ => by rw [List.nil_append, splitChar, if_pos rfl]
  | x :: a, rest, h => by
    rw [List.cons_append, splitChar, if_neg (by rintro rfl; exact h List.mem_cons_self), splitChar_field c a rest (fun h' => h (List.mem_cons_of_mem _ h'))]

theorem splitChar_last (c : Char) : ∀ (a : List Char), c ∉ a → splitChar c a = [a]
  | [], _ => rfl
  | x :: a, h => by
    rw [splitChar, if_neg (by rintro rfl; exact h List.mem_cons_self), splitChar_last c a (fun h' => h (List.mem_cons_of_mem _ h'))]

theorem filter_brackets (a : List Char) (h1 : '<' ∉ a) (h2 : '>' ∉ a) : (a.filter (· ≠ '<')).filter (· ≠ '>') = a := by
  have e1 : a.filter (· ≠ '<') = a := List.filter_eq_self.mpr (fun x hx => decide_eq_true (by rintro rfl; exact h1 hx))
  have e2 : a.filter (· ≠ '>') = a := List.filter_eq_self.mpr (fun x hx => decide_eq_true (by rintro rfl; exact h2 hx))
  rw [e1, e2]

/-- **C75.** `Vector3.parse` of three comma-separated fields, in angle brackets or not, is the vector of the numbers the fields denote; the fields may be
padded with white space. -/
theorem C75_parse (pf : List Char → Option F64) (a b c : List Char) (x y z : F64)
    (ha : ∀ ch ∈ a, ch ≠ ',' ∧ ch ≠ '<' ∧ ch ≠ '>') (hb : ∀ ch ∈ b, ch ≠ ',' ∧ ch ≠ '<' ∧ ch ≠ '>') (hc : ∀ ch ∈ c, ch ≠ ',' ∧ ch ≠ '<' ∧ ch ≠ '>')
    (ta tb tc : List Char) (hta : Trimmed a ta) (htb : Trimmed b tb) (htc : Trimmed c tc)
    (hx : pf ta = some x) (hy : pf tb = some y) (hz : pf tc = some z) :
    vec3Parse pf (a ++ ',' :: (b ++ ',' :: c)) = .ok ⟨x, y, z⟩ ∧
    vec3Parse pf ('<' :: (a ++ ',' :: (b ++ ',' :: c)) ++ ['>']) = .ok ⟨x, y, z⟩ := by
  rw [← strip_of_trimmed hta] at hx
  rw [← strip_of_trimmed htb] at hy
  rw [← strip_of_trimmed htc] at hz
  have ca : ',' ∉ a := fun h => (ha _ h).1 rfl
  have cb : ',' ∉ b := fun h => (hb _ h).1 rfl
  have cc : ',' ∉ c := fun h => (hc _ h).1 rfl
  have hmem : ∀ ch ∈ a ++ ',' :: (b ++ ',' :: c), ch ≠ '<' ∧ ch ≠ '>' := by
    intro ch h
    simp only [List.mem_append, List.mem_cons] at h
    rcases h with h | rfl | h | rfl | h
    · exact (ha ch h).2
    · decide
    · exact (hb ch h).2
    · decide
    · exact (hc ch h).2
  have fa := filter_brackets _ (fun h => (hmem _ h).1 rfl) (fun h => (hmem _ h).2 rfl)
  have hs : splitChar ',' (a ++ ',' :: (b ++ ',' :: c)) = [a, b, c] := by
    rw [splitChar_field _ _ _ ca, splitChar_field _ _ _ cb, splitChar_last _ _ cc]
  have core : ∀ s, (s.filter (· ≠ '<')).filter (· ≠ '>') = a ++ ',' :: (b ++ ',' :: c) → vec3Parse pf s = .ok ⟨x, y, z⟩ := by
    intro s h
    unfold vec3Parse
    simp only
    rw [h, hs]
    simp only [floatsOf, hx, hy, hz]
    rfl
  refine ⟨core _ fa, core _ ?_⟩
  rw [List.filter_append, List.filter_append, List.filter_cons_of_neg (by decide), fa]
  exact List.append_nil _

/-- **C75, rejection.** Any other number of commas, or a field that is not a number, is a `ValueError`; nothing else can be raised. -/
theorem C75_rejects (pf : List Char → Option F64) (s : List Char) :
    (s.count ',' ≠ 2 → vec3Parse pf s = .error .valueError) ∧ (∀ e, vec3Parse pf s = .error e → e = .valueError) := by
  have hcount : ((s.filter (· ≠ '<')).filter (· ≠ '>')).count ',' = s.count ',' := by
    rw [List.count_filter (by decide), List.count_filter (by decide)]
  have hfl : ∀ ds e, floatsOf pf ds = .error e → e = .valueError := by
    intro ds
    induction ds with
    | nil => intro e h; cases h
    | cons d ds ih =>
      intro e h
      unfold floatsOf at h
      cases hd : pf (strip d) with
      | none => rw [hd] at h; cases h; rfl
      | some x =>
        rw [hd] at h
        cases hr : floatsOf pf ds with
        | error e' => simp only [hr] at h; cases h; exact ih e hr
        | ok l => simp only [hr] at h; cases h
  constructor
  · intro h
    unfold vec3Parse
    simp only
    rw [if_pos (by rw [splitChar_length, hcount]; omega)]
  · intro e h
    unfold vec3Parse at h
    simp only at h
    generalize splitChar ',' ((s.filter (· ≠ '<')).filter (· ≠ '>')) = dims at h
    by_cases hd : dims.length ≠ 3
    · rw [if_pos hd] at h; cases h; rfl
    · rw [if_neg hd] at h
      cases hr : floatsOf pf dims with
      | error e' => simp only [hr] at h; cases h; exact hfl dims e hr
      | ok l =>
        simp only [hr] at h
        match l, h with
        | [], h => cases h; rfl
        | [_], h => cases h; rfl
        | [_, _], h => cases h; rfl
        | [_, _, _], h => cases h
        | _ :: _ :: _ :: _ :: _, h => cases h; rfl

theorem splitChar_inv (c : Char) : ∀ (s : List Char), ∃ f fs, splitChar c s = f :: fs ∧ c ∉ f ∧
    ((fs = [] ∧ s = f) ∨ ∃ r, s = f ++ c :: r ∧ fs = splitChar c r)
  | [] => ⟨[], [], rfl, by simp, .inl ⟨rfl, rfl⟩⟩
  | x :: s => by
    obtain ⟨f, fs, h1, h2, h3⟩ := splitChar_inv c s
    have hu : splitChar c (x :: s) = if x = c then [] :: splitChar c s else match splitChar c s with
        | [] => [[x]]
        | f :: fs => (x :: f) :: fs := rfl
    rw [hu]
    by_cases hx : x = c
    · subst hx
      exact ⟨[], splitChar x s, by rw [if_pos rfl], by simp, .inr ⟨s, rfl, rfl⟩⟩
    · rw [if_neg hx, h1]
      refine ⟨x :: f, fs, rfl, by simp [h2, Ne.symm hx], ?_⟩
      rcases h3 with ⟨rfl, rfl⟩ | ⟨r, rfl, rfl⟩
      · exact .inl ⟨rfl, rfl⟩
      · exact .inr ⟨r, rfl, rfl⟩

/-- **C75, exactly.** `Vector3.parse` returns a vector exactly if the text, with all angle brackets taken out, consists of three fields without commas,
separated by commas, which without the white space around them denote the components; in every other case it raises `ValueError` (`C75_rejects`). -/
theorem C75_exact (pf : List Char → Option F64) (s : List Char) (v : Vec3) :
    vec3Parse pf s = .ok v ↔ ∃ a b c ta tb tc, s.filter (fun ch => decide (ch ≠ '<' ∧ ch ≠ '>')) = a ++ ',' :: (b ++ ',' :: c) ∧
      ',' ∉ a ∧ ',' ∉ b ∧ ',' ∉ c ∧ Trimmed a ta ∧ Trimmed b tb ∧ Trimmed c tc ∧ pf ta = some v.X ∧ pf tb = some v.Y ∧ pf tc = some v.Z := by
  suffices h : vec3Parse pf s = .ok v ↔ ∃ a b c, s.filter (fun ch => decide (ch ≠ '<' ∧ ch ≠ '>')) = a ++ ',' :: (b ++ ',' :: c) ∧
      ',' ∉ a ∧ ',' ∉ b ∧ ',' ∉ c ∧ pf (strip a) = some v.X ∧ pf (strip b) = some v.Y ∧ pf (strip c) = some v.Z by
    rw [h]
    constructor
    · rintro ⟨a, b, c, h1, h2, h3, h4, h5, h6, h7⟩
      exact ⟨a, b, c, _, _, _, h1, h2, h3, h4, trimmed_strip a, trimmed_strip b, trimmed_strip c, h5, h6, h7⟩
    · rintro ⟨a, b, c, ta, tb, tc, h1, h2, h3, h4, t1, t2, t3, h5, h6, h7⟩
      exact ⟨a, b, c, h1, h2, h3, h4, strip_of_trimmed t1 ▸ h5, strip_of_trimmed t2 ▸ h6, strip_of_trimmed t3 ▸ h7⟩
  have hfil : (s.filter (· ≠ '<')).filter (· ≠ '>') = s.filter (fun ch => decide (ch ≠ '<' ∧ ch ≠ '>')) := by
    rw [List.filter_filter]
    congr 1
    funext ch
    simp [Bool.and_comm]
  unfold vec3Parse
  simp only
  rw [hfil]
  generalize s.filter (fun ch => decide (ch ≠ '<' ∧ ch ≠ '>')) = s
  constructor
  · intro h
    by_cases hl : (splitChar ',' s).length ≠ 3
    · rw [if_pos hl] at h; cases h
    · rw [if_neg hl] at h
      obtain ⟨a, fs, ha, hna, h1⟩ := splitChar_inv ',' s
      rw [ha] at hl h
      rcases h1 with ⟨rfl, _⟩ | ⟨r, hs, rfl⟩
      · simp at hl
      obtain ⟨b, fs, hb, hnb, h1⟩ := splitChar_inv ',' r
      rw [hb] at hl h
      rcases h1 with ⟨rfl, _⟩ | ⟨r', hr, rfl⟩
      · simp at hl
      obtain ⟨c, fs, hc, hnc, h1⟩ := splitChar_inv ',' r'
      rw [hc] at hl h
      rcases h1 with ⟨rfl, hr'⟩ | ⟨r'', _, rfl⟩
      · refine ⟨a, b, c, by rw [hs, hr, hr'], hna, hnb, hnc, ?_⟩
        simp only [floatsOf] at h
        cases hpa : pf (strip a) with
        | none => rw [hpa] at h; cases h
        | some x =>
          cases hpb : pf (strip b) with
          | none => rw [hpa, hpb] at h; cases h
          | some y =>
            cases hpc : pf (strip c) with
            | none => rw [hpa, hpb, hpc] at h; cases h
            | some z =>
              rw [hpa, hpb, hpc] at h
              cases h
              exact ⟨rfl, rfl, rfl⟩
      · have := splitChar_ne_nil ',' r''
        have := List.length_pos_iff.mpr this
        have hl : ¬ (splitChar ',' r'').length + 3 ≠ 3 := hl
        omega
  · rintro ⟨a, b, c, rfl, ca, cb, cc, hx, hy, hz⟩
    rw [splitChar_field _ _ _ ca, splitChar_field _ _ _ cb, splitChar_last _ _ cc]
    simp only [floatsOf, hx, hy, hz]
    rfl

/-- **C75, `repr`.** Parsing the text of a vector gives what the texts of its components denote: the vector itself up to the precision of `str(float)`. -/
theorem C75_repr (pf : List Char → Option F64) (fmt : F64 → List Char)
    (hfmt : ∀ x, ∀ ch ∈ fmt x, ch ≠ ',' ∧ ch ≠ '<' ∧ ch ≠ '>' ∧ ¬ White ch) (v : Vec3) (x y z : F64)
    (hx : pf (fmt v.X) = some x) (hy : pf (fmt v.Y) = some y) (hz : pf (fmt v.Z) = some z) :
    vec3Parse pf (v.repr fmt) = .ok ⟨x, y, z⟩ := by
  have hst : ∀ w, Trimmed (fmt w) (fmt w) ∧ Trimmed (' ' :: fmt w) (fmt w) := by
    intro w
    have h1 : ∀ c, (fmt w).head? = some c → ¬ White c := fun c hc => (hfmt w c (List.mem_of_mem_head? hc)).2.2.2
    have h2 : ∀ c, (fmt w).getLast? = some c → ¬ White c := fun c hc => (hfmt w c (List.mem_of_getLast? hc)).2.2.2
    exact ⟨⟨[], [], by simp, by simp, by simp, h1, h2⟩, ⟨[' '], [], by simp, by simp [White], by simp, h1, h2⟩⟩
  have hc : ∀ w, ∀ ch ∈ (' ' :: fmt w), ch ≠ ',' ∧ ch ≠ '<' ∧ ch ≠ '>' := by
    intro w ch h
    rcases List.mem_cons.mp h with rfl | h
    · decide
    · exact ⟨(hfmt w ch h).1, (hfmt w ch h).2.1, (hfmt w ch h).2.2.1⟩
  have := (C75_parse pf (fmt v.X) (' ' :: fmt v.Y) (' ' :: fmt v.Z) x y z (fun ch h => hc v.X ch (List.mem_cons_of_mem _ h)) (hc v.Y) (hc v.Z)
    _ _ _ (hst _).1 (hst _).2 (hst _).2 hx hy hz).2
  rw [← this]
  congr 1
  simp [Vec3.repr]

/-- A toy `float`: the digits 1 and 2. -/
def demoFloat : List Char → Option F64
  | ['1'] => some 0x3ff0000000000000#64
  | ['2'] => some 0x4000000000000000#64
  | _ => none

example : vec3Parse demoFloat ['<', '1', ',', ' ', '2', ',', ' ', '1', '>'] = .ok ⟨0x3ff0000000000000#64, 0x4000000000000000#64, 0x3ff0000000000000#64⟩ := by
  decide +kernel

/-- Misplaced brackets are accepted. -/
theorem C75_stray_brackets : vec3Parse demoFloat ['1', '<', ',', '>', '>', '2', ',', '1'] =
    .ok ⟨0x3ff0000000000000#64, 0x4000000000000000#64, 0x3ff0000000000000#64⟩ := by
  decide +kernel

/-! ## C76 -/

/-- **C76.** `a == b` holds exactly for `datatypes.UUID` objects with the same 128 bits: never for a standard `uuid.UUID`, also not one of the same value. -/
theorem C76_eq (value : BitVec 128) (o : UuidOperand) : uuidEq value o = true ↔ ∃ i, o = .obj i value := by
  cases o with
  | obj i v =>
    simp only [uuidEq, beq_iff_eq, UuidOperand.obj.injEq]
    constructor
    · rintro rfl; exact ⟨i, rfl, rfl⟩
    · rintro ⟨_, _, h⟩; exact h.symm
  | std i v => simp [uuidEq]
  | other i => simp [uuidEq]

/-- **C76, the intended reading fails:** `!=` is not the negation of `==`: two objects of the same value are `==` and `!=` at the same time. -/
theorem C76_ne (id id' : Nat) (value : BitVec 128) (h : id ≠ id') :
    uuidEq value (.obj id' value) = true ∧ uuidNe id (.obj id' value) = true := by
  simp [uuidEq, uuidNe, UuidOperand.id, h]

/-- **C76, equality of copies.** A copy, and a UUID made from the bytes or from the text, is another object that is equal to the original and to nothing of
a different value. -/
theorem C76_copies (u w : BitVec 128) (i : Nat) (v : BitVec 128)
    (h : uuidCopy u = .ok v ∨ uuidNew (bytes := some (uuidGetBytes u)) = .ok v ∨ uuidNew (string := uuidToString u) = .ok v) :
    uuidEq u (.obj i v) = true ∧ (uuidEq w (.obj i v) = true ↔ w = u) := by
  obtain ⟨h1, -, h2, h3, -⟩ := C06_uuid_roundtrip u
  have hv : v = u := by
    rcases h with h | h | h
    · rw [h3] at h; cases h; rfl
    · rw [h1] at h; cases h; rfl
    · rw [h2] at h; cases h; rfl
  subst hv
  simp [uuidEq]

/-- **C76, in a list.** `u in l` holds exactly if an element of the list has the value of `u` (objects do not change while they are in the list, so that the
same object has the same value). -/
theorem C76_in_list (l : List (Nat × BitVec 128)) (id : Nat) (value : BitVec 128) (hsame : ∀ k ∈ l, k.1 = id → k.2 = value) :
    uuidInList l id value = true ↔ ∃ k ∈ l, k.2 = value := by
  unfold uuidInList
  rw [List.any_eq_true]
  constructor
  · rintro ⟨k, hk, h⟩
    refine ⟨k, hk, ?_⟩
    simp only [uuidEq, Bool.or_eq_true, beq_iff_eq] at h
    rcases h with h | h
    · exact hsame k hk h
    · exact h.symm
  · rintro ⟨k, hk, h⟩
    exact ⟨k, hk, by simp [uuidEq, h]⟩

/-- **C76, in a dict (the intended reading fails).** A dict finds what is stored under the very same object only: not under an equal UUID, such as a copy or the same
UUID received again. -/
theorem C76_in_dict {α : Type} (h : Nat → Nat) (hinj : ∀ i j, h i = h j → i = j) (d : List ((Nat × BitVec 128) × α)) (id : Nat) (value : BitVec 128) :
    uuidDictGet h d id value = (d.find? fun k => k.1.1 == id).map (·.2) ∧
    ((∀ k ∈ d, k.1.1 ≠ id) → uuidDictGet h d id value = none) := by
  have e : uuidDictGet h d id value = (d.find? fun k => k.1.1 == id).map (·.2) := by
    unfold uuidDictGet
    congr 2
    funext k
    by_cases hk : k.1.1 = id
    · simp [hk]
    · have : uuidHash h k.1.1 ≠ uuidHash h id := fun e => hk (hinj _ _ e)
      simp [hk, this]
  refine ⟨e, fun hn => ?_⟩
  rw [e, List.find?_eq_none.mpr (fun k hk => by simp [hn k hk])]
  rfl

example : uuidInList [(1, 5), (2, 6)] 3 5 = true ∧ uuidDictGet (fun i => i) [((1, 5#128), "a")] 1 5 = some "a" ∧
    uuidDictGet (fun i => i) [((1, 5#128), "a")] 3 5 = none := by decide

example : uuidEq 5 (.obj 1 5) = true ∧ uuidEq 5 (.std 1 5) = false ∧ uuidEq 5 (.obj 1 6) = false ∧ uuidCopy 5 = .ok 5 := by
  refine ⟨by decide, by decide, by decide, (C06_uuid_roundtrip 5).2.2.2.1⟩

end Pyogp
