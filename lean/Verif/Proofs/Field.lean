import Verif.Proofs.FloatData
import Verif.Spec.Field
import Verif.Model.Serializer
import Verif.Model.Deserializer

namespace Pyogp
open Spec

theorem atLeastZero_eq (d : Num) : Spec.atLeastZero d = d.nonneg := by cases d <;> rfl
theorem opposite_eq (d : Num) : Spec.opposite d = d.neg := by
  cases d with
  | int i => exact congrArg _ (Int.zero_sub i)
  | flt x => rfl

theorem selectBytes_mid (pre b post : Bytes) (ty : MsgType) :
    selectBytes (pre ++ b ++ post) ty (some pre.length) (some b.length) = b := by
  simp only [selectBytes]
  exact slice_append pre b post _ rfl

theorem unpackData_mid (rt : Runtime) (pre b post : Bytes) (ty : MsgType) :
    unpackData rt (pre ++ b ++ post) ty (some pre.length) (some b.length) = unpackData rt b ty := by
  unfold unpackData
  simp only [selectBytes_mid]
  rfl

/-- `uuid` bytes. -/
theorem uuidBytes_length (u : BitVec 128) : (uuidBytes u).length = 16 := by simp [uuidBytes]

theorem uuidOfBytes_uuidBytes (u : BitVec 128) : uuidOfBytes (uuidBytes u) = .ok u := by
  unfold uuidOfBytes
  rw [if_pos (uuidBytes_length u)]
  unfold uuidBytes
  rw [List.reverse_reverse, leVal_leBytes]
  congr 1
  apply BitVec.eq_of_toNat_eq
  simp only [BitVec.toNat_ofNat]
  have := u.isLt
  omega

theorem uuidBytes_uuidOfBytes {b : Bytes} (h : b.length = 16) :
    ∃ u, uuidOfBytes b = .ok u ∧ uuidBytes u = b := by
  refine ⟨_, by unfold uuidOfBytes; rw [if_pos h], ?_⟩
  have hl := leVal_lt b.reverse
  rw [List.length_reverse, h] at hl
  unfold uuidBytes
  rw [BitVec.toNat_ofNat, Nat.mod_eq_of_lt (by simpa using hl), leBytes_leVal_of_length (by simp [h]),
    List.reverse_reverse]

theorem unpackF32_packF32 {en : Endian} {x : F64} {b : Bytes} (h : packF32 en x = .ok b) :
    ∃ y, toSingle x = some y ∧ unpackF32 en b = .ok y := by
  unfold packF32 at h
  split at h
  · rename_i n hn
    cases h
    refine ⟨BitVec.ofNat 64 (widenBits n), by unfold toSingle; rw [hn]; rfl, ?_⟩
    unfold unpackF32
    have := narrowBits_lt x.isLt hn
    rw [if_pos (by simp), order_order, leVal_leBytes, Nat.mod_eq_of_lt (by simpa using this)]
  · cases h

/-- Slot-wise: packing a number and unpacking it. -/
theorem unpackNum_packNum_f {en : Endian} {n : Num} {b : Bytes} (h : packNum en .f n = .ok b) :
    b.length = 4 ∧ ∃ y, single n = some y ∧ unpackF32 en b = .ok y := by
  unfold packNum at h
  cases n with
  | flt x =>
    have h' : packF32 en x = .ok b := h
    obtain ⟨y, h1, h2⟩ := unpackF32_packF32 h'
    exact ⟨packF32_length h', y, by simp [single, asDouble, h1], h2⟩
  | int i =>
    simp only [Num.toF64] at h
    cases hx : intToF64 i with
    | none => rw [hx] at h; cases h
    | some x =>
      rw [hx] at h
      have h' : packF32 en x = .ok b := h
      obtain ⟨y, h1, h2⟩ := unpackF32_packF32 h'
      exact ⟨packF32_length h', y, by simp [single, asDouble, hx, h1], h2⟩

theorem unpackNum_packNum_d {en : Endian} {n : Num} {b : Bytes} (h : packNum en .d n = .ok b) :
    b.length = 8 ∧ ∃ y, asDouble n = some y ∧ unpackF64 en b = .ok y := by
  unfold packNum at h
  cases n with
  | flt x =>
    have h' : packF64 en x = .ok b := h
    obtain ⟨b', h1, h2, h3⟩ := unpackF64_packF64 en x
    rw [h'] at h1; cases h1
    exact ⟨h2, x, rfl, h3⟩
  | int i =>
    simp only [Num.toF64] at h
    cases hx : intToF64 i with
    | none => rw [hx] at h; cases h
    | some x =>
      rw [hx] at h
      have h' : packF64 en x = .ok b := h
      obtain ⟨b', h1, h2, h3⟩ := unpackF64_packF64 en x
      rw [h'] at h1; cases h1
      exact ⟨h2, x, by simp [asDouble, hx], h3⟩

theorem packNum_f_of_single {en : Endian} {n : Num} {y : F64} (h : single n = some y) :
    ∃ b, packNum en .f n = .ok b := by
  unfold single at h
  cases hd : asDouble n with
  | none => rw [hd] at h; cases h
  | some x =>
    rw [hd] at h
    have h' : toSingle x = some y := h
    unfold toSingle at h'
    cases hn : narrowBits x.toNat with
    | none => rw [hn] at h'; cases h'
    | some f =>
      have : packF32 en x = .ok (en.order (leBytes 4 f)) := by unfold packF32; rw [hn]
      cases n with
      | flt z => cases hd; exact ⟨_, this⟩
      | int i =>
        simp only [asDouble] at hd
        unfold packNum
        simp only [Num.toF64, hd]
        exact ⟨_, this⟩

theorem packNum_d_of_asDouble {en : Endian} {n : Num} {y : F64} (h : asDouble n = some y) :
    ∃ b, packNum en .d n = .ok b := by
  cases n with
  | flt z => exact ⟨_, rfl⟩
  | int i =>
    simp only [asDouble] at h
    unfold packNum
    simp only [Num.toF64, h]
    exact ⟨_, rfl⟩

theorem packTuple_of_each {en tp} : ∀ {ns : List Num}, (∀ n ∈ ns, ∃ b, packNum en tp n = .ok b) →
    ∃ b, packTuple en tp ns = .ok b
  | [], _ => ⟨[], rfl⟩
  | n :: ns, h => by
    obtain ⟨b1, h1⟩ := h n List.mem_cons_self
    obtain ⟨b2, h2⟩ := packTuple_of_each (fun m hm => h m (List.mem_cons_of_mem _ hm))
    exact ⟨b1 ++ b2, by simp only [packTuple, h1, h2]; rfl⟩

theorem packTuple_cons {en tp n ns b} (h : packTuple en tp (n :: ns) = .ok b) :
    ∃ b1 b2, packNum en tp n = .ok b1 ∧ packTuple en tp ns = .ok b2 ∧ b = b1 ++ b2 := by
  simp only [packTuple] at h
  cases h1 : packNum en tp n with
  | error e => rw [h1] at h; cases h
  | ok b1 =>
    cases h2 : packTuple en tp ns with
    | error e => rw [h1, h2] at h; cases h
    | ok b2 => rw [h1, h2] at h; cases h; exact ⟨b1, b2, rfl, rfl, rfl⟩

theorem packTuple_length {en tp} : ∀ {ns b}, packTuple en tp ns = .ok b → b.length = ns.length * tp.size
  | [], b, h => by cases h; simp
  | n :: ns, b, h => by
    obtain ⟨b1, b2, h1, h2, rfl⟩ := packTuple_cons h
    have := packTuple_length h2
    have h3 : b1.length = tp.size := by
      cases tp
      · exact (unpackNum_packNum_f h1).1
      · exact (unpackNum_packNum_d h1).1
    simp only [List.length_append, List.length_cons, this, h3, Nat.add_mul, Nat.one_mul]
    omega

/-- Three singles. -/
theorem packTuple3 {en : Endian} {a b c : Num} {p : Bytes} (h : packTuple en .f [a, b, c] = .ok p) :
    p.length = 12 ∧ ∃ x y z, single a = some x ∧ single b = some y ∧ single c = some z ∧
      unpackF32 en (slice p 0 (0 + 4)) = .ok x ∧ unpackF32 en (slice p (0 + 4) (0 + 8)) = .ok y ∧
      unpackF32 en (slice p (0 + 8) (0 + 12)) = .ok z := by
  obtain ⟨p1, r1, h1, h', rfl⟩ := packTuple_cons h
  obtain ⟨p2, r2, h2, h'', rfl⟩ := packTuple_cons h'
  obtain ⟨p3, r3, h3, h''', rfl⟩ := packTuple_cons h''
  cases h'''
  obtain ⟨l1, x, sx, ux⟩ := unpackNum_packNum_f h1
  obtain ⟨l2, y, sy, uy⟩ := unpackNum_packNum_f h2
  obtain ⟨l3, z, sz, uz⟩ := unpackNum_packNum_f h3
  refine ⟨by simp [l1, l2, l3], x, y, z, sx, sy, sz, ?_, ?_, ?_⟩
  · have := slice_append [] p1 (p2 ++ (p3 ++ [])) 4 l1
    simp only [List.nil_append, List.length_nil] at this; rw [this, ux]
  · have := slice_append p1 p2 (p3 ++ []) 4 l2
    rw [l1, List.append_assoc] at this; rw [Nat.zero_add, this, uy]
  · have := slice_append (p1 ++ p2) p3 [] 4 l3
    rw [List.length_append, l1, l2, List.append_assoc, List.append_assoc] at this; rw [Nat.zero_add, this, uz]

theorem unpackTuple_packTuple {en : Endian} {tp : FloatFmt} {g : Num → Option F64}
    (hg : ∀ n b, packNum en tp n = .ok b → b.length = tp.size ∧ ∃ y, g n = some y ∧ unpackNum en tp b = .ok y) :
    ∀ {ns : List Num} {p : Bytes}, packTuple en tp ns = .ok p →
      ∃ ys, ns.mapM g = some ys ∧ unpackNums en tp ns.length p = .ok (ys.map .flt)
  | [], p, h => by cases h; exact ⟨[], rfl, rfl⟩
  | n :: ns, p, h => by
    obtain ⟨b1, b2, h1, h2, rfl⟩ := packTuple_cons h
    obtain ⟨ys, h3, h4⟩ := unpackTuple_packTuple hg h2
    obtain ⟨hl, y, hy, hu⟩ := hg _ _ h1
    refine ⟨y :: ys, by simp [hy, h3], ?_⟩
    simp only [List.length_cons, unpackNums, List.map_cons]
    rw [← hl, List.take_left' rfl, List.drop_left' rfl, hu, h4]
    rfl

/-- The packed value occupies the room the template gives it. -/
def fits (v : TVar) (p : Bytes) : Prop :=
  if v.type = .variable then p.length < 256 ^ v.size else p.length = v.size

instance (v p) : Decidable (fits v p) := by unfold fits; infer_instance

theorem packString_text {x : PyVal} {p : Bytes} (h : packString x = .ok p) :
    ∃ s, textBytes x = some s ∧ p = s ++ [0] := by
  cases x <;> simp only [packString, Except.ok.injEq, reduceCtorEq] at h <;> subst h <;>
    first | exact ⟨[], rfl, rfl⟩ | exact ⟨_, rfl, rfl⟩

theorem rstrip0_append_zero (s : Bytes) : rstrip0 (s ++ [0]) = rstrip0 s := by
  simp [rstrip0]

theorem truncF64_whole (x : F64) : truncF64 x = wholePart x := by
  have hx := x.isLt
  unfold truncF64 wholePart
  by_cases h : x.toNat / 2 ^ 52 % 2 ^ 11 = 2047
  · simp only [h, if_true]
  · simp only [h, if_false]
    have hs : neg64 x.toNat = decide (2 ^ 63 ≤ x.toNat) := by
      unfold neg64
      congr 1
      apply propext
      constructor <;> omega
    rw [hs]
    have hm : x.toNat % 2 ^ 52 < 2 ^ 52 := Nat.mod_lt _ (by decide)
    have he : x.toNat / 2 ^ 52 % 2 ^ 11 < 2 ^ 11 := Nat.mod_lt _ (by decide)
    have key : (if x.toNat / 2 ^ 52 % 2 ^ 11 < 1023 then 0
        else if x.toNat / 2 ^ 52 % 2 ^ 11 < 1075 then (2 ^ 52 + x.toNat % 2 ^ 52) / 2 ^ (1075 - x.toNat / 2 ^ 52 % 2 ^ 11)
        else (2 ^ 52 + x.toNat % 2 ^ 52) * 2 ^ (x.toNat / 2 ^ 52 % 2 ^ 11 - 1075)) = mag64 x.toNat / 2 ^ 1074 := by
      unfold mag64
      generalize x.toNat % 2 ^ 52 = m at *
      generalize x.toNat / 2 ^ 52 % 2 ^ 11 = e at *
      obtain ⟨c, hc⟩ : ∃ c, c = 1074 := ⟨_, rfl⟩
      rw [← hc]
      have hpc := Nat.two_pow_pos c
      have big : ∀ k, 53 + k ≤ c → 2 ^ 53 * 2 ^ k ≤ 2 ^ c := by
        intro k hk
        rw [← Nat.pow_add]
        exact Nat.pow_le_pow_right (by decide) hk
      by_cases h0 : e = 0
      · rw [if_pos (by omega), if_pos h0, Nat.div_eq_of_lt]
        have := big 0 (by omega)
        omega
      · rw [if_neg h0]
        by_cases h1 : e < 1023
        · rw [if_pos h1, Nat.div_eq_of_lt]
          refine Nat.lt_of_lt_of_le (Nat.mul_lt_mul_of_pos_right (by omega : 2 ^ 52 + m < 2 ^ 53) (Nat.two_pow_pos _)) (big _ (by omega))
        · rw [if_neg h1]
          by_cases h2 : e < 1075
          · rw [if_pos h2]
            have e1 : 2 ^ c = 2 ^ (1075 - e) * 2 ^ (e - 1) := by rw [← Nat.pow_add]; congr 1; omega
            rw [e1, Nat.mul_div_mul_right _ _ (Nat.two_pow_pos _)]
          · rw [if_neg h2]
            have e1 : 2 ^ (e - 1) = 2 ^ (e - 1075) * 2 ^ c := by rw [← Nat.pow_add]; congr 1; omega
            rw [e1, ← Nat.mul_assoc, Nat.mul_div_cancel _ hpc]
    rw [key]
    by_cases hn : 2 ^ 63 ≤ x.toNat
    · rw [if_pos hn, if_pos (by simpa using hn)]
    · rw [if_neg hn, if_neg (by simpa using hn)]

/-- A float whose whole part fits into the slot is packed like that integer. -/
theorem packIntVal_whole (v : PyVersion) (en : Endian) (f : IntFmt) {n : Num} {i : Int} (h : asInteger n = some i) (hr : InRange f.size f.signed i) :
    packIntVal v en f (.num n) = structPack v en f i := by
  cases n with
  | int j => cases h; rfl
  | flt x =>
    simp only [asInteger] at h
    simp only [packIntVal, packTruncated, truncF64_whole, h]
    rw [inRange_iff] at hr
    cases v
    · show (if _ then _ else _) = _
      rw [if_neg]
      rintro (⟨-, h⟩ | ⟨h1, h2, h3⟩)
      · exact h hr
      · apply h3
        cases f <;> simp only [IntFmt.signed, IntFmt.size, IntFmt.lo, IntFmt.hi, if_true, reduceCtorEq] at * <;> first | omega | (exfalso; revert h2; decide)
    · rfl

theorem packIntVal_length {v en f x p} (h : packIntVal v en f x = .ok p) : p.length = f.size := by
  unfold packIntVal at h
  split at h
  · exact structPack_length h
  · rename_i y
    unfold packTruncated at h
    cases ht : truncF64 y with
    | none => rw [ht] at h; simp only at h; split at h; cases h; split at h <;> cases h
    | some n =>
      rw [ht] at h
      cases v <;> simp only at h
      · split at h
        · cases h
        · exact structPack_length h
      · exact structPack_length h
  · cases h

/-- The integer types, given any number. -/
theorem field_num (rt : Runtime) {ty n s d i} (hw : wireInt ty = some (n, s, d)) (hr : InRange n s i) :
    ∃ p, (∀ m, asInteger m = some i → packData rt (.num m) ty = .ok p) ∧ p.length = n ∧ unpackData rt p ty = .ok (.num (.int i)) := by
  obtain ⟨f, hp, hu, rfl, rfl, hs⟩ := table_of_wireInt hw
  obtain ⟨b, hb, hub⟩ := structUnpack_structPack (v := rt.ver) (e := d) (inRange_iff.mp hr)
  refine ⟨b, ?_, structPack_length hb, ?_⟩
  · intro m hm
    unfold packData
    rw [hp]
    simp only [Codec.pack, Option.getD_none, packIntVal_whole rt.ver d f hm hr, hb]
  rw [unpackData_int hu]
  simp only [selectBytes, Option.getD_none, hub]
  rfl

/-- The integer types. -/
theorem field_int (rt : Runtime) {ty n s d i} (hw : wireInt ty = some (n, s, d)) (hr : InRange n s i) :
    ∃ p, packData rt (.num (.int i)) ty = .ok p ∧ p.length = n ∧ unpackData rt p ty = .ok (.num (.int i)) := by
  obtain ⟨p, h1, h2, h3⟩ := field_num rt hw hr
  exact ⟨p, h1 _ rfl, h2, h3⟩

/-- Every representable value packs into its slot and is unpacked as `receivedAs` says. -/
theorem field_roundtrip (rt : Runtime) {v : TVar} (hv : WFVar v) {x y : PyVal} (h : receivedAs rt v x = some y) :
    ∃ p z, packData rt x v.type = .ok p ∧ fits v p ∧ unpackData rt p v.type = .ok z ∧ normaliseVar v z = y := by
  obtain ⟨name, ty, size⟩ := v
  have hint : ∀ n s d i, wireInt ty = some (n, s, d) → size = n → ty ≠ .variable → (∃ m, x = .num m ∧ asInteger m = some i) →
      (if InRange n s i then some (PyVal.num (.int i)) else none) = some y →
      ∃ p z, packData rt x ty = .ok p ∧ fits ⟨name, ty, size⟩ p ∧ unpackData rt p ty = .ok z ∧
        normaliseVar ⟨name, ty, size⟩ z = y := by
    intro n s d i hw hsz hne hx hy
    split at hy
    · rename_i hr
      cases hy
      obtain ⟨p, h1, h2, h3⟩ := field_num rt hw hr
      obtain ⟨m, rfl, hm⟩ := hx
      refine ⟨p, _, h1 m hm, by simp [fits, hne, h2, hsz], h3, by simp [normaliseVar, hne]⟩
    · cases hy
  cases ty
  case «variable» =>
    simp only [receivedAs] at h
    split at h
    · rename_i s hs
      split at h
      · rename_i hlen
        have hp : packData rt x .variable = .ok (s ++ [0]) := by
          simp only [packData, packerTable, Codec.pack]
          cases x <;> simp only [textBytes, Option.some.injEq, reduceCtorEq] at hs <;> subst hs <;> rfl
        refine ⟨s ++ [0], .str (s ++ [0]), hp, by simpa [fits] using hlen, rfl, ?_⟩
        split at h
        · rename_i hd
          cases h
          simp [normaliseVar, hd]
        · rename_i hd
          cases h
          have e : (s.reverse.dropWhile (· == 0)).reverse = rstrip0 s := rfl
          simp [e, normaliseVar, hd, rstrip0_append_zero]
      · cases h
    · cases h
  case u8 | u16 | u32 | u64 | s8 | s16 | s32 | s64 | bool | ipport =>
    simp only [receivedAs, wireInt] at h
    split at h
    · rename_i m
      cases hm : asInteger m with
      | none => rw [hm] at h; cases h
      | some i => rw [hm] at h; exact hint _ _ _ _ rfl hv (by decide) ⟨m, rfl, hm⟩ h
    · cases h
  case f32 =>
    simp only [receivedAs] at h
    split at h
    · rename_i n
      simp only [Option.map_eq_some_iff] at h
      obtain ⟨w, hw, rfl⟩ := h
      obtain ⟨p, hp⟩ := packNum_f_of_single (en := .little) hw
      obtain ⟨hl, y, hy, hu⟩ := unpackNum_packNum_f hp
      rw [hw] at hy; cases hy
      have hsz : size = 4 := hv
      refine ⟨p, .num (.flt w), hp, by simp [fits, hl, hsz], ?_, by simp [normaliseVar]⟩
      simp only [unpackData, unpackerTable, selectBytes, Codec.unpack, unpackNum, Option.getD_none, hu]; rfl
    · cases h
  case f64 =>
    simp only [receivedAs] at h
    split at h
    · rename_i n
      simp only [Option.map_eq_some_iff] at h
      obtain ⟨w, hw, rfl⟩ := h
      obtain ⟨p, hp⟩ := packNum_d_of_asDouble (en := .little) hw
      obtain ⟨hl, y, hy, hu⟩ := unpackNum_packNum_d hp
      rw [hw] at hy; cases hy
      have hsz : size = 8 := hv
      refine ⟨p, .num (.flt w), hp, by simp [fits, hl, hsz], ?_, by simp [normaliseVar]⟩
      simp only [unpackData, unpackerTable, selectBytes, Codec.unpack, unpackNum, Option.getD_none, hu]; rfl
    · cases h
  case vector3 =>
    simp only [receivedAs] at h
    split at h
    · rename_i a b c hx
      simp only [Option.bind_eq_bind, Option.bind_eq_some_iff, Option.some.injEq] at h
      obtain ⟨a', ha, b', hb, c', hc, rfl⟩ := h
      obtain ⟨p, hp⟩ := packTuple_of_each (en := .little) (tp := .f) (ns := [a, b, c]) (by
        intro n hn
        simp only [List.mem_cons, List.not_mem_nil, or_false] at hn
        rcases hn with rfl | rfl | rfl
        · exact packNum_f_of_single ha
        · exact packNum_f_of_single hb
        · exact packNum_f_of_single hc)
      obtain ⟨hl, x1, y1, z1, e1, e2, e3, u1, u2, u3⟩ := packTuple3 hp
      rw [ha] at e1; rw [hb] at e2; rw [hc] at e3
      cases e1; cases e2; cases e3
      have hsz : size = 12 := hv
      refine ⟨p, .vec3 a' b' c', ?_, by simp [fits, hl, hsz], ?_, by simp [normaliseVar]⟩
      · cases x <;> simp only [nums, Option.some.injEq, reduceCtorEq] at hx
        · subst hx; exact hp
        · simp only [List.cons.injEq, and_true] at hx
          obtain ⟨rfl, rfl, rfl⟩ := hx; exact hp
      · simp only [unpackData, unpackerTable, selectBytes, Codec.unpack, vector3OfBytes, u1, u2, u3]; rfl
    · cases h
  case vector3d =>
    simp only [receivedAs] at h
    split at h
    · rename_i a b c
      simp only [Option.bind_eq_bind, Option.bind_eq_some_iff, Option.some.injEq] at h
      obtain ⟨a', ha, b', hb, c', hc, rfl⟩ := h
      obtain ⟨p, hp⟩ := packTuple_of_each (en := .little) (tp := .d) (ns := [a, b, c]) (by
        intro n hn
        simp only [List.mem_cons, List.not_mem_nil, or_false] at hn
        rcases hn with rfl | rfl | rfl
        · exact packNum_d_of_asDouble ha
        · exact packNum_d_of_asDouble hb
        · exact packNum_d_of_asDouble hc)
      have hl := packTuple_length hp
      obtain ⟨ys, hys, hu⟩ := unpackTuple_packTuple (en := .little) (tp := .d) (g := asDouble)
        (fun n b h => unpackNum_packNum_d h) hp
      have : ys = [a', b', c'] := by simpa [ha, hb, hc] using hys.symm
      subst this
      have hsz : size = 24 := hv
      refine ⟨p, .tuple [.flt a', .flt b', .flt c'], hp, by simpa [fits, hsz, FloatFmt.size] using hl, ?_, by simp [normaliseVar]⟩
      have hl' : p.length / FloatFmt.d.size = 3 := by rw [hl]; simp [FloatFmt.size]
      simp only [unpackData, unpackerTable, selectBytes, Codec.unpack, Option.getD_none, unpackTuple, hl']
      simp only [List.length_cons, List.length_nil] at hu
      rw [hu]; rfl
    · cases h
  case vector4 =>
    simp only [receivedAs] at h
    split at h
    · rename_i a b c d
      simp only [Option.bind_eq_bind, Option.bind_eq_some_iff, Option.some.injEq] at h
      obtain ⟨a', ha, b', hb, c', hc, d', hd, rfl⟩ := h
      obtain ⟨p, hp⟩ := packTuple_of_each (en := .little) (tp := .f) (ns := [a, b, c, d]) (by
        intro n hn
        simp only [List.mem_cons, List.not_mem_nil, or_false] at hn
        rcases hn with rfl | rfl | rfl | rfl
        · exact packNum_f_of_single ha
        · exact packNum_f_of_single hb
        · exact packNum_f_of_single hc
        · exact packNum_f_of_single hd)
      have hl := packTuple_length hp
      obtain ⟨ys, hys, hu⟩ := unpackTuple_packTuple (en := .little) (tp := .f) (g := single)
        (fun n b h => unpackNum_packNum_f h) hp
      have : ys = [a', b', c', d'] := by simpa [ha, hb, hc, hd] using hys.symm
      subst this
      have hsz : size = 16 := hv
      refine ⟨p, .tuple [.flt a', .flt b', .flt c', .flt d'], hp, by simpa [fits, hsz, FloatFmt.size] using hl, ?_,
        by simp [normaliseVar]⟩
      have hl' : p.length / FloatFmt.f.size = 4 := by rw [hl]; simp [FloatFmt.size]
      simp only [unpackData, unpackerTable, selectBytes, Codec.unpack, Option.getD_none, unpackTuple, hl']
      simp only [List.length_cons, List.length_nil] at hu
      rw [hu]; rfl
    · cases h
  case quaternion =>
    simp only [receivedAs, atLeastZero_eq, opposite_eq] at h
    split at h
    · rename_i a b c d hx
      simp only [Option.bind_eq_bind, Option.bind_eq_some_iff, Option.some.injEq] at h
      obtain ⟨a', ha, b', hb, c', hc, rfl⟩ := h
      obtain ⟨p, hp⟩ := packTuple_of_each (en := .little) (tp := .f)
        (ns := [if d.nonneg then a else a.neg, if d.nonneg then b else b.neg, if d.nonneg then c else c.neg]) (by
        intro n hn
        simp only [List.mem_cons, List.not_mem_nil, or_false] at hn
        rcases hn with rfl | rfl | rfl
        · exact packNum_f_of_single ha
        · exact packNum_f_of_single hb
        · exact packNum_f_of_single hc)
      obtain ⟨hl, x1, y1, z1, e1, e2, e3, u1, u2, u3⟩ := packTuple3 hp
      rw [ha] at e1; rw [hb] at e2; rw [hc] at e3
      cases e1; cases e2; cases e3
      have hsz : size = 12 := hv
      have hq : ∀ rest, (packQuatToVec3 (a :: b :: c :: d :: rest)) =
          .ok [if d.nonneg then a else a.neg, if d.nonneg then b else b.neg, if d.nonneg then c else c.neg] := by
        intro rest
        unfold packQuatToVec3
        simp only [index, List.getElem?_cons_succ, List.getElem?_cons_zero]
        show (if d.nonneg = true then _ else _) = _
        split <;> rfl
      refine ⟨p, .quat a' b' c' (rt.quatW a' b' c'), ?_, by simp [fits, hl, hsz], ?_, by simp [normaliseVar]⟩
      · match x, hx with
        | .quat _ _ _ _, hx =>
          simp only [quatNums, Option.some.injEq, Prod.mk.injEq] at hx
          obtain ⟨rfl, rfl, rfl, rfl⟩ := hx
          simp only [packData, packerTable, Codec.pack, hq, Option.getD_none]
          exact hp
        | .tuple (_ :: _ :: _ :: _ :: _), hx =>
          simp only [quatNums, Option.some.injEq, Prod.mk.injEq] at hx
          obtain ⟨rfl, rfl, rfl, rfl⟩ := hx
          simp only [packData, packerTable, Codec.pack, hq, Option.getD_none]
          exact hp
      · have u4 : unpackF32 .little (slice p (0 + 12) (0 + 16)) = .error .structError := by
          unfold unpackF32
          rw [if_neg (by simp [slice, hl])]
        simp only [unpackData, unpackerTable, selectBytes, Codec.unpack, quaternionOfBytes, u1, u2, u3, u4]; rfl
    · cases h
  case uuid =>
    simp only [receivedAs] at h
    split at h
    · rename_i u
      cases h
      have hsz : size = 16 := hv
      refine ⟨uuidBytes u, .uuid u, rfl, by simp [fits, hsz, uuidBytes_length], ?_, by simp [normaliseVar]⟩
      have hsl : slice (uuidBytes u) 0 16 = uuidBytes u := by
        simp [slice, List.take_of_length_le, uuidBytes_length]
      simp only [unpackData, unpackerTable, selectBytes, Codec.unpack, hsl, uuidOfBytes_uuidBytes]; rfl
    · cases h
  case fixed =>
    simp only [receivedAs] at h
    split at h
    · rename_i s hs
      split at h
      · rename_i hlen
        cases h
        have hp : packData rt x .fixed = .ok (s ++ [0]) := by
          simp only [packData, packerTable, Codec.pack]
          cases x <;> simp only [textBytes, Option.some.injEq, reduceCtorEq] at hs <;> subst hs <;> rfl
        exact ⟨s ++ [0], .str (s ++ [0]), hp, by simpa [fits] using hlen, rfl, by simp [normaliseVar]⟩
      · cases h
    · cases h
  case ipaddr =>
    simp only [receivedAs] at h
    split at h
    · rename_i s hs
      split at h
      · rename_i hlen
        cases h
        have hp : packData rt x .ipaddr = .ok (s ++ [0]) := by
          simp only [packData, packerTable, Codec.pack]
          cases x <;> simp only [textBytes, Option.some.injEq, reduceCtorEq] at hs <;> subst hs <;> rfl
        exact ⟨s ++ [0], .str (s ++ [0]), hp, by simpa [fits] using hlen, rfl, by simp [normaliseVar]⟩
      · cases h
    · cases h

end Pyogp
