import Verif.Proofs.FloatData

/-! # C03: float fields -/

namespace Pyogp
open Spec

/-- **C03**, F64: every 8-byte string unpacks and packs back to itself; any other length raises
`DataUnpackingError`. -/
theorem C03_f64_bytes (rt : Runtime) (en? : Option Endian) (b : Bytes) :
    (b.length = 8 → ∃ x, unpackData rt b .f64 none none en? = .ok (.num (.flt x)) ∧
      packData rt (.num (.flt x)) .f64 en? = .ok b) ∧
    (b.length ≠ 8 → unpackData rt b .f64 none none en? = .error .dataUnpacking) := by
  constructor
  · intro h
    obtain ⟨x, h1, h2⟩ := packF64_unpackF64 (en?.getD .little) b h
    refine ⟨x, ?_, ?_⟩
    · simp only [unpackData, unpackerTable, selectBytes, Codec.unpack, unpackNum, h1]; rfl
    · simp only [packData, packerTable, Codec.pack, packNum, Num.toF64]; exact h2
  · intro h
    simp only [unpackData, unpackerTable, selectBytes, Codec.unpack, unpackNum, unpackF64, if_neg h]; rfl

/-- **C03**, F64: every double is received as the same double (also NaNs, infinities and `-0.0`). -/
theorem C03_f64_value (rt : Runtime) (en? : Option Endian) (x : F64) :
    ∃ b, packData rt (.num (.flt x)) .f64 en? = .ok b ∧ IsDigits 8 (en?.getD .little) x.toNat b ∧
      unpackData rt b .f64 none none en? = .ok (.num (.flt x)) := by
  obtain ⟨b, h1, h2, h3⟩ := unpackF64_packF64 (en?.getD .little) x
  refine ⟨b, ?_, ?_, ?_⟩
  · simp only [packData, packerTable, Codec.pack, packNum, Num.toF64]; exact h1
  · have : b = (en?.getD .little).order (leBytes 8 x.toNat) := (Except.ok.inj h1).symm
    rw [this]; exact isDigits_leBytes _ _ _
  · simp only [unpackData, unpackerTable, selectBytes, Codec.unpack, unpackNum, h3]; rfl

/-- **C03**, F32: every 4-byte string that is not a NaN unpacks and packs back to itself; any other length raises
`DataUnpackingError`. -/
theorem C03_f32_bytes (rt : Runtime) (en? : Option Endian) (b : Bytes) :
    (b.length = 4 → (∀ n : Nat, IsDigits 4 (en?.getD .little) n b → n < 2 ^ 32 → ¬ isNaN32 n) →
      ∃ x, unpackData rt b .f32 none none en? = .ok (.num (.flt x)) ∧
        packData rt (.num (.flt x)) .f32 en? = .ok b) ∧
    (b.length ≠ 4 → unpackData rt b .f32 none none en? = .error .dataUnpacking) := by
  constructor
  · intro h hn
    have hl := leVal_lt ((en?.getD .little).order b)
    rw [order_length, h] at hl
    have hd : IsDigits 4 (en?.getD .little) (leVal ((en?.getD .little).order b)) b := by
      have := isDigits_leBytes 4 (en?.getD .little) (leVal ((en?.getD .little).order b))
      rwa [leBytes_leVal_of_length (by simp [h]), order_order] at this
    obtain ⟨x, h1, h2⟩ := packF32_unpackF32 (en?.getD .little) b h (hn _ hd (by simpa using hl))
    refine ⟨x, ?_, ?_⟩
    · simp only [unpackData, unpackerTable, selectBytes, Codec.unpack, unpackNum, h1]; rfl
    · simp only [packData, packerTable, Codec.pack, packNum, Num.toF64]; exact h2
  · intro h
    simp only [unpackData, unpackerTable, selectBytes, Codec.unpack, unpackNum, unpackF32, if_neg h]; rfl

example : ∀ n : Nat, IsDigits 4 .little n [0, 0, 0x80, 0x3f] → n < 2 ^ 32 → ¬ isNaN32 n := by
  intro n h hn
  have := leVal_of_isDigits h hn
  rw [← this]
  decide +kernel

/-- **C03**, F32: a received single is the double of exactly the same value. -/
theorem C03_f32_value (rt : Runtime) (en? : Option Endian) (b : Bytes) (n : Nat) (hn : n < 2 ^ 32)
    (hb : IsDigits 4 (en?.getD .little) n b) (hf : Finite32 n) :
    ∃ x, unpackData rt b .f32 none none en? = .ok (.num (.flt x)) ∧ Finite64 x.toNat ∧
      neg64 x.toNat = neg32 n ∧ mag64 x.toNat = mag32 n := by
  have h := leVal_of_isDigits hb hn
  refine ⟨BitVec.ofNat 64 (widenBits n), ?_, ?_⟩
  · simp only [unpackData, unpackerTable, selectBytes, Codec.unpack, unpackNum, unpackF32, if_pos hb.1, h]; rfl
  · rw [BitVec.toNat_ofNat, Nat.mod_eq_of_lt (widenBits_lt hn)]
    exact widen_exact hn hf

example : IsDigits 4 .little 0x3f800000 [0, 0, 0x80, 0x3f] ∧ Finite32 0x3f800000 := by
  refine ⟨?_, by unfold Finite32; decide⟩
  exact isDigits_leBytes 4 .little 0x3f800000

/-- **C03**, F32: a finite double is rejected exactly when its magnitude is at least half-way between the largest
single and `2^128`; otherwise the bytes sent are those of the nearest single (ties to the even one). -/
theorem C03_f32_rounding (rt : Runtime) (en? : Option Endian) (x : F64) (hx : Finite64 x.toNat) :
    (singleOverflow ≤ mag64 x.toNat → packData rt (.num (.flt x)) .f32 en? = .error .overflowError) ∧
    (mag64 x.toNat < singleOverflow → ∃ b f, packData rt (.num (.flt x)) .f32 en? = .ok b ∧
      IsDigits 4 (en?.getD .little) (f : Nat) b ∧ f < 2 ^ 32 ∧ Finite32 f ∧ neg32 f = neg64 x.toNat ∧
      ∀ g, dist (mag64 x.toNat) (mag32 f) ≤ dist (mag64 x.toNat) (mag32 g) ∧
        (dist (mag64 x.toNat) (mag32 f) = dist (mag64 x.toNat) (mag32 g) → mag32 g ≠ mag32 f → f % 2 = 0)) := by
  have hov := narrow_overflow hx
  constructor
  · intro h
    simp only [packData, packerTable, Codec.pack, packNum, Num.toF64]
    show packF32 _ _ = _
    unfold packF32
    rw [hov.mpr h]
  · intro h
    have hne : narrowBits x.toNat ≠ none := fun c => by have := hov.mp c; omega
    obtain ⟨f, hf⟩ := Option.ne_none_iff_exists'.mp hne
    obtain ⟨h1, h2, h3, h4⟩ := narrow_nearest x.isLt hx hf
    refine ⟨_, f, ?_, isDigits_leBytes _ _ _, h1, h2, h3, h4⟩
    simp only [packData, packerTable, Codec.pack, packNum, Num.toF64]
    show packF32 _ _ = _
    unfold packF32
    rw [hf]

example : Finite64 (0x3ff8000000000000 : F64).toNat ∧ mag64 (0x3ff8000000000000 : F64).toNat < singleOverflow := by
  unfold Finite64 mag64 singleOverflow
  decide +kernel

/-- **C03**, vectors: a `Vector3`, `Vector3d` or `Vector4` field whose component strings `cs` have the component width
(and are not single-precision NaNs) unpacks to a value whose components are the components unpacked one by one, and
packs back to the same bytes. -/
theorem C03_vector_bytes (rt : Runtime) (ty : MsgType) (k : Nat) (dbl : Bool) (hty : wireFloats ty = some (k, dbl))
    (hk : k ≠ 1) (cs : List Bytes) (hlen : cs.length = k)
    (hw : ∀ c ∈ cs, c.length = if dbl then 8 else 4)
    (hnan : dbl = false → ∀ c ∈ cs, ∀ n : Nat, IsDigits 4 .little n c → n < 2 ^ 32 → ¬ isNaN32 n) :
    ∃ v xs, unpackData rt cs.flatten ty = .ok v ∧ components v = some xs ∧
      packData rt v ty = .ok cs.flatten ∧
      cs.map (fun c => unpackData rt c (if dbl then .f64 else .f32)) = xs.map (fun x => .ok (.num (.flt x))) := by
  have base : ∀ c ∈ cs, ∃ x, unpackNum .little (if dbl then .d else .f) c = .ok x ∧
      packNum .little (if dbl then .d else .f) (.flt x) = .ok c := by
    intro c hc
    have hl := hw c hc
    cases dbl with
    | true => exact packF64_unpackF64 .little c hl
    | false =>
      simp only [Bool.false_eq_true, if_false] at hl
      have hlt := leVal_lt c
      rw [hl] at hlt
      have hd : IsDigits 4 .little (leVal c) c := by
        have := isDigits_leBytes 4 .little (leVal c)
        rwa [leBytes_leVal_of_length hl] at this
      exact packF32_unpackF32 .little c hl (hnan rfl c hc _ hd hlt)
  have base2 : ∀ c x, unpackNum .little (if dbl then .d else .f) c = .ok x →
      unpackData rt c (if dbl then .f64 else .f32) = .ok (.num (.flt x)) := by
    intro c x h
    cases dbl <;> simp only [unpackData, unpackerTable, selectBytes, Codec.unpack, if_true, if_false,
      Bool.false_eq_true, Option.getD_none] at h ⊢ <;> rw [h] <;> rfl
  cases ty <;> simp only [wireFloats, Option.some.injEq, Prod.mk.injEq, reduceCtorEq] at hty <;>
    obtain ⟨rfl, rfl⟩ := hty <;> try exact absurd rfl hk
  · -- vector3
    obtain ⟨a, b, c, rfl⟩ : ∃ a b c, cs = [a, b, c] := by
      match cs, hlen with
      | [a, b, c], _ => exact ⟨a, b, c, rfl⟩
    obtain ⟨x, hx, hx'⟩ := base a (by simp)
    obtain ⟨y, hy, hy'⟩ := base b (by simp)
    obtain ⟨z, hz, hz'⟩ := base c (by simp)
    have la := hw a (by simp); have lb := hw b (by simp); have lc := hw c (by simp)
    simp only [Bool.false_eq_true, if_false] at la lb lc
    have s1 : slice (a ++ (b ++ c)) 0 (0 + 4) = a := by
      have := slice_append [] a (b ++ c) 4 la; simpa using this
    have s2 : slice (a ++ (b ++ c)) (0 + 4) (0 + 8) = b := by
      have := slice_append a b c 4 lb; rw [la, List.append_assoc] at this; simpa using this
    have s3 : slice (a ++ (b ++ c)) (0 + 8) (0 + 12) = c := by
      have := slice_append (a ++ b) c [] 4 lc
      rw [List.length_append, la, lb, List.append_nil, List.append_assoc] at this; simpa using this
    refine ⟨.vec3 x y z, [x, y, z], ?_, rfl, ?_, ?_⟩
    · simp only [List.flatten_cons, List.flatten_nil, List.append_nil, unpackData, unpackerTable, selectBytes,
        Codec.unpack, vector3OfBytes, s1, s2, s3]
      simp only [unpackNum, if_false, Bool.false_eq_true] at hx hy hz
      rw [hx, hy, hz]; rfl
    · simp only [if_false, Bool.false_eq_true] at hx' hy' hz'
      simp only [List.flatten_cons, List.flatten_nil, List.append_nil, packData, packerTable, Codec.pack, packTuple,
        Option.getD_none, hx', hy', hz']
      simp [bind, Except.bind]
    · simp only [List.map_cons, List.map_nil]
      rw [base2 _ _ hx, base2 _ _ hy, base2 _ _ hz]
  · obtain ⟨xs, h1, h2, h3⟩ := tuple_roundtrip .little .d cs (fun c hc => ⟨hw c hc, base c hc⟩)
    refine ⟨.tuple (xs.map .flt), xs, ?_, List.mapM_map_flt xs, ?_, ?_⟩
    · simp only [unpackData, unpackerTable, selectBytes, Codec.unpack, Option.getD_none, h1]; rfl
    · simp only [packData, packerTable, Codec.pack, tupleArg, Option.getD_none]; exact h2
    · exact map_base h3 base2
  · obtain ⟨xs, h1, h2, h3⟩ := tuple_roundtrip .little .f cs (fun c hc => ⟨hw c hc, base c hc⟩)
    refine ⟨.tuple (xs.map .flt), xs, ?_, List.mapM_map_flt xs, ?_, ?_⟩
    · simp only [unpackData, unpackerTable, selectBytes, Codec.unpack, Option.getD_none, h1]; rfl
    · simp only [packData, packerTable, Codec.pack, tupleArg, Option.getD_none]; exact h2
    · exact map_base h3 base2

example : wireFloats .vector3d = some (3, true) ∧
    ∀ c ∈ [leBytes 8 1, leBytes 8 2, leBytes 8 3], c.length = 8 := by decide

end Pyogp
