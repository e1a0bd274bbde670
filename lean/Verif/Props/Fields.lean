import Verif.Proofs.Field
import Verif.Proofs.Util
import Verif.Proofs.Codec
import Verif.Model.Serializer
import Verif.Model.Deserializer

/-! # C04, C05: width of fixed-size fields, variable-length text fields -/

namespace Pyogp
open Spec

/-- A value with the number of components of its vector type (no condition for other types). -/
def WellShaped (ty : MsgType) (x : PyVal) : Prop :=
  match ty with
  | .vector3 | .vector3d => ∃ ns, nums x = some ns ∧ ns.length = 3
  | .vector4 => ∃ ns, nums x = some ns ∧ ns.length = 4
  | _ => True

theorem packNum_length {en tp n b} (h : packNum en tp n = .ok b) : b.length = tp.size := by
  cases tp
  · exact (unpackNum_packNum_f h).1
  · exact (unpackNum_packNum_d h).1

theorem tupleArg_nums {x : PyVal} {ns ms} (h : tupleArg x = .ok ns) (hn : nums x = some ms) : ns = ms := by
  cases x <;> simp_all [tupleArg, nums]

/-- The number of bytes that `sizeof(type)`, the arity of a vector and the terminator of a text together announce for a value: text is followed
by one NUL, a vector takes as many slots as it has components, everything else the width of its type. -/
def announcedLength (ty : MsgType) (x : PyVal) : Option Nat :=
  match ty with
  | .fixed | .variable | .ipaddr => (textBytes x).map (fun s => s.length + 1)
  | .vector3 | .vector4 => (nums x).map (fun ns => 4 * ns.length)
  | .vector3d => (nums x).map (fun ns => 8 * ns.length)
  | ty => wireWidth ty

/-- Every accepted value of a fixed-width type other than IPADDR, with the right number of
components if it is a vector, is packed into exactly the width of the type, whatever byte order is requested. -/
theorem C04_width (rt : Runtime) (ty : MsgType) (n : Nat) (hw : wireWidth ty = some n) (hip : ty ≠ .ipaddr)
    (x : PyVal) (hx : WellShaped ty x) (en? : Option Endian) (p : Bytes) (h : packData rt x ty en? = .ok p) :
    p.length = n := by
  have hint : ∀ f en, packIntVal rt.ver en f x = .ok p → p.length = f.size := by
    intro f en h
    exact packIntVal_length h
  have htup : ∀ {en tp ns}, packTuple en tp ns = .ok p → p.length = ns.length * tp.size := packTuple_length
  cases ty <;> simp only [wireWidth, Option.some.injEq, reduceCtorEq] at hw <;> subst hw <;>
    simp only [packData, packerTable, Codec.pack] at h <;> try exact hint _ _ h
  case f32 => split at h; exact packNum_length h; cases h
  case f64 => split at h; exact packNum_length h; cases h
  case ipaddr => exact absurd rfl hip
  case uuid => split at h; cases h; exact uuidBytes_length _; cases h
  case vector3 =>
    obtain ⟨ns, hns, hl⟩ := hx
    split at h
    · simpa [FloatFmt.size] using htup h
    · obtain ⟨ms, ht, h⟩ := bind_ok.mp h
      rw [htup h, tupleArg_nums ht hns, hl]; rfl
  case vector3d =>
    obtain ⟨ns, hns, hl⟩ := hx
    obtain ⟨ms, ht, h⟩ := bind_ok.mp h
    rw [htup h, tupleArg_nums ht hns, hl]; rfl
  case vector4 =>
    obtain ⟨ns, hns, hl⟩ := hx
    obtain ⟨ms, ht, h⟩ := bind_ok.mp h
    rw [htup h, tupleArg_nums ht hns, hl]; rfl
  case quaternion =>
    have hq : ∀ q ms, packQuatToVec3 q = .ok ms → ms.length = 3 := by
      intro q ms hq
      simp only [packQuatToVec3, bind_ok] at hq
      obtain ⟨_, _, _, _, _, _, _, _, hq⟩ := hq
      split at hq <;> cases hq <;> rfl
    split at h
    · obtain ⟨ms, ht, h⟩ := bind_ok.mp h
      rw [htup h, hq _ _ ht]; rfl
    · obtain ⟨ms, ht, h⟩ := bind_ok.mp h
      rw [htup h, hq _ _ ht]; rfl
    · split at h <;> cases h
    · split at h <;> cases h
    all_goals cases h

example : WellShaped .vector3 (.tuple [.int 1, .int 2, .int 3]) ∧
    packData ⟨.v27, fun _ _ _ => 0⟩ (.tuple [.int 1, .int 2, .int 3]) .vector3 =
      .ok [0, 0, 128, 63, 0, 0, 0, 64, 0, 0, 64, 64] := ⟨⟨_, rfl, rfl⟩, by decide +kernel⟩

/-- **C04.** Every accepted value of every type occupies exactly the announced number of bytes, whatever byte order is requested. An empty
text given for a vector (which has no components) occupies none.  In particular a vector occupies the width of its type exactly if it has the
declared number of components, and a text given for a FIXED or IPADDR field always one byte more than it has. -/
theorem C04_length (rt : Runtime) (ty : MsgType) (x : PyVal) (en? : Option Endian) (p : Bytes) (h : packData rt x ty en? = .ok p) :
    announcedLength ty x = some p.length ∨ (ty ∈ [MsgType.vector3, .vector3d, .vector4] ∧ textBytes x = some [] ∧ p = []) := by
  have htext : packString x = .ok p → (textBytes x).map (fun s => s.length + 1) = some p.length := by
    intro h
    cases x <;> simp only [packString, Except.ok.injEq, reduceCtorEq] at h <;> subst h <;> simp [textBytes]
  have htup : ∀ {en tp ns}, packTuple en tp ns = .ok p → p.length = ns.length * tp.size := packTuple_length
  have hvec : ∀ {en tp}, (tupleArg x >>= packTuple en tp) = .ok p →
      (nums x).map (fun ns => tp.size * ns.length) = some p.length ∨ (textBytes x = some [] ∧ p = []) := by
    intro en tp h
    obtain ⟨ms, ht, h⟩ := bind_ok.mp h
    cases x with
    | tuple ns =>
      cases ht
      left
      rw [htup h, Nat.mul_comm]
      rfl
    | str b =>
      cases b with
      | nil => cases ht; cases h; right; exact ⟨rfl, rfl⟩
      | cons => cases ht
    | unicode b =>
      cases b with
      | nil => cases ht; cases h; right; exact ⟨rfl, rfl⟩
      | cons => cases ht
    | none => cases ht
    | num _ => cases ht
    | uuid _ => cases ht
    | vec3 => cases ht
    | quat => cases ht
    | llsd _ => cases ht
  have hfix : ∀ n, wireWidth ty = some n → ty ≠ .ipaddr → WellShaped ty x → some n = some p.length := by
    intro n h1 h2 h3
    rw [C04_width rt ty n h1 h2 x h3 en? p h]
  cases ty <;> try (exact Or.inl (hfix _ rfl (by decide) trivial))
  case fixed => exact Or.inl (htext h)
  case «variable» => exact Or.inl (htext h)
  case ipaddr => exact Or.inl (htext h)
  case vector3 =>
    simp only [packData, packerTable, Codec.pack] at h
    split at h
    · left
      have := htup h
      simp only [FloatFmt.size, List.length_cons, List.length_nil] at this
      simp [announcedLength, nums, this]
    · rcases hvec h with h | h
      · exact Or.inl h
      · exact Or.inr ⟨by decide, h⟩
  case vector3d =>
    rcases hvec h with h | h
    · exact Or.inl h
    · exact Or.inr ⟨by decide, h⟩
  case vector4 =>
    rcases hvec h with h | h
    · exact Or.inl h
    · exact Or.inr ⟨by decide, h⟩

example : announcedLength .fixed (.str [1, 2, 3]) = some 4 ∧ packData ⟨.v27, fun _ _ _ => 0⟩ (.str [1, 2, 3]) .fixed = .ok [1, 2, 3, 0] := by
  decide +kernel

/-- A text value of exactly the declared size of a FIXED field is packed into one byte more: the next field starts
one byte late for the receiver. -/
theorem C04_fixed_too_wide (rt : Runtime) (s : Bytes) (en? : Option Endian) :
    ∃ p, packData rt (.str s) .fixed en? = .ok p ∧ p = s ++ [0] ∧ p.length = s.length + 1 :=
  ⟨_, rfl, rfl, by simp⟩

/-- No accepted value of an IPADDR field that is 4 bytes long is packed into 4 bytes. -/
theorem C04_ipaddr_too_wide (rt : Runtime) (s : Bytes) (hs : s.length = 4) (en? : Option Endian) :
    ∃ p, packData rt (.str s) .ipaddr en? = .ok p ∧ p.length = 5 ∧ wireWidth .ipaddr = some 4 :=
  ⟨_, rfl, by simp [hs], rfl⟩

/-- A vector given with `k` components is accepted and packed into `4k` bytes, whatever `k` is. -/
theorem C04_vector_arity (rt : Runtime) (k : Nat) (en? : Option Endian) :
    ∃ p, packData rt (.tuple (List.replicate k (.int 0))) .vector3 en? = .ok p ∧ p.length = 4 * k := by
  obtain ⟨p, hp⟩ := packTuple_of_each (en := en?.getD .little) (tp := .f) (ns := List.replicate k (.int 0)) (by
    intro n hn
    rw [List.eq_of_mem_replicate hn]
    exact ⟨List.replicate 4 0, by cases en?.getD .little <;> decide +kernel⟩)
  refine ⟨p, hp, ?_⟩
  have := packTuple_length hp
  simp only [List.length_replicate, FloatFmt.size] at this
  omega

theorem dropWhile_zero_split (l : Bytes) :
    ∃ k, l = List.replicate k 0 ++ l.dropWhile (· == 0) ∧ ∀ c, (l.dropWhile (· == 0)).head? = some c → c ≠ 0 := by
  induction l with
  | nil => exact ⟨0, rfl, fun c h => by cases h⟩
  | cons a l ih =>
    by_cases ha : a = 0
    · subst ha
      obtain ⟨k, h1, h2⟩ := ih
      refine ⟨k + 1, ?_, by simpa using h2⟩
      simp only [List.dropWhile_cons, beq_self_eq_true, if_true, List.replicate_succ, List.cons_append]
      rw [← h1]
    · refine ⟨0, ?_, ?_⟩
      · simp [ha]
      · intro c hc
        simp [ha] at hc
        rw [← hc]; exact ha

/-- `rstrip0` removes exactly the trailing NULs. -/
theorem rstrip0_isStripped (s : Bytes) : IsStripped s (rstrip0 s) := by
  obtain ⟨k, h1, h2⟩ := dropWhile_zero_split s.reverse
  constructor
  · refine ⟨k, ?_⟩
    have := congrArg List.reverse h1
    rw [List.reverse_reverse, List.reverse_append, List.reverse_replicate] at this
    exact this
  · intro r' hr
    have h3 := congrArg List.reverse hr
    unfold rstrip0 at h3
    rw [List.reverse_reverse, List.reverse_append, List.reverse_cons, List.reverse_nil, List.nil_append] at h3
    exact h2 0 (by rw [h3]; rfl) rfl

theorem isStripped_unique {s r r' : Bytes} (h : IsStripped s r) (h' : IsStripped s r') : r = r' := by
  obtain ⟨⟨k, hk⟩, hr⟩ := h
  obtain ⟨⟨k', hk'⟩, hr'⟩ := h'
  have key : ∀ {a b : Bytes} {i j : Nat}, i ≤ j → a ++ List.replicate i 0 = b ++ List.replicate j 0 →
      (∀ c, a ≠ c ++ [0]) → a = b := by
    intro a b i j hij h hn
    obtain ⟨d, rfl⟩ := Nat.exists_eq_add_of_le hij
    rw [Nat.add_comm, ← List.replicate_append_replicate, ← List.append_assoc] at h
    have := List.append_cancel_right h
    cases d with
    | zero => simpa using this
    | succ d =>
      rw [List.replicate_succ', ← List.append_assoc] at this
      exact absurd this (hn _)
  rcases Nat.le_total k k' with h | h
  · exact key h (hk ▸ hk') hr
  · exact (key h (hk' ▸ hk) hr').symm

/-- **C05, other fields.** A `None`, `str` or `unicode` value with bytes `s` in a variable-length field not called `Data`
whose length prefix has room for it is sent, and received (whatever surrounds it in the datagram) as `s` without its
trailing NULs; so text that has none is received exactly. -/
theorem C05_text (rt : Runtime) (v : TVar) (ht : v.type = .variable)
    (hs : v.size = 1 ∨ v.size = 2 ∨ v.size = 4) (hn : v.name ≠ "Data") (b : BlockData) (x : PyVal) (s : Bytes)
    (hb : b.getItem v.name = .ok x) (hx : textBytes x = some s) (hlen : s.length + 1 < 256 ^ v.size) :
    ∃ bs r, serializeVar rt b v = .ok bs ∧ IsStripped s r ∧ ((∀ s', s ≠ s' ++ [0]) → r = s) ∧
      ∀ pre post, decodeVar rt (pre ++ bs ++ post) v pre.length =
        .ok ({ name := v.name, data := .str r, varType := some .variable }, pre.length + bs.length) := by
  have hr : receivedAs rt v x = some (.str (rstrip0 s)) := by
    simp [receivedAs, ht, hx, hlen, hn]; rfl
  obtain ⟨vd, hvd, rfl⟩ : ∃ vd, b.vars.get? v.name = some vd ∧ vd.data = x := by
    simp only [BlockData.getItem, BlockData.getVariable, Dict.get, bind_ok, Except.ok.injEq] at hb
    obtain ⟨vd, h1, h2⟩ := hb
    split at h1
    · cases h1; exact ⟨_, by assumption, h2⟩
    · cases h1
  have hwf : WFVar v := by unfold WFVar; rw [ht]; simpa [wireWidth] using hs
  obtain ⟨bs, h1, h2⟩ := decodeVar_serializeVar rt hwf (b := b)
    (d := { name := v.name, data := .str (rstrip0 s), varType := some v.type }) (by simp [expVar, hvd, hr])
  refine ⟨bs, rstrip0 s, h1, rstrip0_isStripped s, ?_, ?_⟩
  · intro h
    exact isStripped_unique (rstrip0_isStripped s) ⟨⟨0, by simp⟩, h⟩
  · rw [← ht]; exact h2

/-- "hi" in a one-byte-prefixed `Name` field. -/
example : (Block.mk' "B" [("Name", .str [104, 105])]).getItem "Name" = .ok (.str [104, 105]) ∧
    textBytes (.str [104, 105]) = some [104, 105] ∧ [104, 105].length + 1 < 256 ^ 1 := by decide

/-- **C05, `Data` fields.** A value in a field called `Data` is received with exactly one NUL more than was sent. -/
theorem C05_data_field_gains_nul (rt : Runtime) (v : TVar) (ht : v.type = .variable)
    (hs : v.size = 1 ∨ v.size = 2 ∨ v.size = 4) (hn : v.name = "Data") (b : BlockData) (s : Bytes)
    (x : PyVal) (hb : b.getItem v.name = .ok x) (hx : textBytes x = some s) (hlen : s.length + 1 < 256 ^ v.size) :
    ∃ bs, serializeVar rt b v = .ok bs ∧
      ∀ pre post, decodeVar rt (pre ++ bs ++ post) v pre.length =
        .ok ({ name := v.name, data := .str (s ++ [0]), varType := some .variable }, pre.length + bs.length) := by
  have hr : receivedAs rt v x = some (.str (s ++ [0])) := by
    simp [receivedAs, ht, hx, hlen, hn]
  obtain ⟨vd, hvd, hdx⟩ : ∃ vd, b.vars.get? v.name = some vd ∧ vd.data = x := by
    simp only [BlockData.getItem, BlockData.getVariable, Dict.get, bind_ok, Except.ok.injEq] at hb
    obtain ⟨vd, h1, h2⟩ := hb
    split at h1
    · cases h1; exact ⟨_, by assumption, h2⟩
    · cases h1
  have hwf : WFVar v := by unfold WFVar; rw [ht]; simpa [wireWidth] using hs
  obtain ⟨bs, h1, h2⟩ := decodeVar_serializeVar rt hwf (b := b)
    (d := { name := v.name, data := .str (s ++ [0]), varType := some v.type }) (by simp [expVar, hvd, hdx, hr])
  exact ⟨bs, h1, by rw [← ht]; exact h2⟩

/-- A text too long for its length prefix is rejected by Python 2.7; Python 2.6 sends it with a wrapped length prefix,
so the receiver misparses the rest. -/
theorem C05_too_long (rt : Runtime) (v : TVar) (ht : v.type = .variable)
    (hs : v.size = 1 ∨ v.size = 2 ∨ v.size = 4) (b : BlockData) (x : PyVal) (s : Bytes)
    (hb : b.getItem v.name = .ok x) (hx : textBytes x = some s) (hlen : 256 ^ v.size ≤ s.length + 1) :
    (rt.ver = .v27 → serializeVar rt b v = .error .structError) ∧
    (rt.ver = .v26 → ∃ p, IsDigits v.size .little (s.length + 1 : Nat) p ∧ serializeVar rt b v = .ok (p ++ s ++ [0])) := by
  suffices hsuff : (rt.ver = .v27 → serializeVar rt b v = .error .structError) ∧
      (rt.ver = .v26 → serializeVar rt b v = .ok (leBytes v.size (s.length + 1) ++ s ++ [0])) from
    ⟨hsuff.1, fun h => ⟨_, isDigits_leBytes _ .little _, hsuff.2 h⟩⟩
  obtain ⟨vd, hvd, rfl⟩ : ∃ vd, b.vars.get? v.name = some vd ∧ vd.data = x := by
    simp only [BlockData.getItem, BlockData.getVariable, Dict.get, bind_ok, Except.ok.injEq] at hb
    obtain ⟨vd, h1, h2⟩ := hb
    split at h1
    · cases h1; exact ⟨_, by assumption, h2⟩
    · cases h1
  have hp : packData rt vd.data .variable = .ok (s ++ [0]) := by
    simp only [packData, packerTable, Codec.pack]
    cases hd : vd.data <;> rw [hd] at hx <;> simp only [textBytes, Option.some.injEq, reduceCtorEq] at hx <;> subst hx <;> rfl
  have leMod : ∀ k n, leBytes k (n % 256 ^ k) = leBytes k n := by
    intro k
    induction k with
    | zero => intro n; rfl
    | succ k ih =>
      intro n
      have e1 : n % 256 ^ (k + 1) % 256 = n % 256 := by
        rw [Nat.pow_succ]; exact Nat.mod_mul_left_mod n (256 ^ k) 256
      have e2 : n % 256 ^ (k + 1) / 256 = n / 256 % 256 ^ k := by
        rw [Nat.pow_succ, Nat.mul_comm]; exact Nat.mod_mul_right_div_self n 256 (256 ^ k)
      simp only [leBytes, e1, e2, ih]
  simp only [serializeVar, getVariable_ok hvd, ht, hp, ok_bind, if_true, List.length_append, List.length_singleton]
  have main : ∀ (f : IntFmt) (en : Endian), f.signed = false → f.size = v.size → f.size ≠ 8 →
      (v.size = 1 ∨ en = .little) →
      (rt.ver = .v27 → structPack rt.ver en f ((s.length + 1 : Nat) : Int) = .error .structError) ∧
      (rt.ver = .v26 → structPack rt.ver en f ((s.length + 1 : Nat) : Int) = .ok (leBytes v.size (s.length + 1))) := by
    intro f en hsg hsz h8 hen
    have hhi : f.hi = ((256 ^ v.size : Nat) : Int) := by
      rw [IntFmt.hi, hsg, hsz, pow256]; rfl
    have hout : ¬ (f.lo ≤ ((s.length + 1 : Nat) : Int) ∧ ((s.length + 1 : Nat) : Int) < f.hi) := by
      rw [hhi]; omega
    unfold structPack
    simp only [if_neg hout]
    constructor
    · intro hv; rw [hv]
    · intro hv; rw [hv]; simp only [if_neg h8]
      congr 1
      have e : (((s.length + 1 : Nat) : Int) % ((2 ^ (8 * f.size) : Nat) : Int)).toNat = (s.length + 1) % 256 ^ v.size := by
        rw [← pow256, hsz, ← Int.natCast_emod, Int.toNat_natCast]
      rw [e, hsz, leMod]
      rcases hen with h1 | h1
      · rw [h1]; cases en <;> simp [Endian.order, leBytes]
      · rw [h1]; rfl
  rcases hs with h | h | h <;> simp only [packVarLen, h]
  · obtain ⟨a, b⟩ := main .B .big rfl (by rw [h]; rfl) (by decide) (.inl h)
    constructor
    · intro hv
      have : packData rt (.num (.int ((s.length + 1 : Nat) : Int))) .u8 = .error .structError := a hv
      simp only [if_true, this]; rfl
    · intro hv
      have : packData rt (.num (.int ((s.length + 1 : Nat) : Int))) .u8 = .ok (leBytes v.size (s.length + 1)) := b hv
      rw [h] at this
      simp only [if_true, this, ok_bind, List.append_assoc]
  · obtain ⟨a, b⟩ := main .H .little rfl (by rw [h]; rfl) (by decide) (.inr rfl)
    constructor
    · intro hv
      have : packData rt (.num (.int ((s.length + 1 : Nat) : Int))) .u16 = .error .structError := a hv
      simp only [if_true, this]; rfl
    · intro hv
      have : packData rt (.num (.int ((s.length + 1 : Nat) : Int))) .u16 = .ok (leBytes v.size (s.length + 1)) := b hv
      rw [h] at this
      simp only [this, List.append_assoc]; rfl
  · obtain ⟨a, b⟩ := main .I .little rfl (by rw [h]; rfl) (by decide) (.inr rfl)
    constructor
    · intro hv
      have : packData rt (.num (.int ((s.length + 1 : Nat) : Int))) .u32 = .error .structError := a hv
      simp only [if_true, this]; rfl
    · intro hv
      have : packData rt (.num (.int ((s.length + 1 : Nat) : Int))) .u32 = .ok (leBytes v.size (s.length + 1)) := b hv
      rw [h] at this
      simp only [this, List.append_assoc]; rfl

example : (Block.mk' "B" [("Name", .str (List.replicate 255 65))]).getItem "Name" = .ok (.str (List.replicate 255 65)) ∧
    256 ^ 1 ≤ (List.replicate 255 (65 : UInt8)).length + 1 := by decide +kernel

end Pyogp
