import Verif.Spec.Layout
import Verif.Proofs.Parse
import Verif.Props.Serialize

/-!
# The bytes of a sent message (C54, C70)
-/

namespace Pyogp
open Spec

/-- `struct.pack` of a natural number in an unsigned format of up to four bytes. -/
theorem structPack_unsigned_iff {v : PyVersion} {e : Endian} {f : IntFmt} (hs : f.signed = false) (h8 : f.size ≠ 8) {n : Nat} {b : Bytes} :
    structPack v e f n = .ok b ↔ b.length = f.size ∧ leVal (e.order b) = n % 256 ^ f.size ∧ (v = .v27 → n < 256 ^ f.size) := by
  have hhi : f.hi = ((256 ^ f.size : Nat) : Int) := by
    cases f <;> first | exact absurd rfl h8 | (simp [IntFmt.signed] at hs; done) | rfl
  have hlo : f.lo = 0 := by
    cases f <;> first | (simp [IntFmt.signed] at hs; done) | rfl
  have h256 : (2 ^ (8 * f.size) : Nat) = 256 ^ f.size := by rw [Nat.pow_mul]
  have hle : (n : Int) % ((2 ^ (8 * f.size) : Nat) : Int) = ((n % 256 ^ f.size : Nat) : Int) := by rw [h256]; rfl
  have hout : ∀ k, leBytes f.size (n % 256 ^ f.size) = k ↔ k.length = f.size ∧ leVal k = n % 256 ^ f.size := by
    intro k
    constructor
    · rintro rfl
      refine ⟨leBytes_length _ _, ?_⟩
      rw [leVal_leBytes, Nat.mod_mod]
    · rintro ⟨h1, h2⟩
      rw [← h2, leBytes_leVal_of_length h1]
  have hord : ∀ k, e.order k = b ↔ k = e.order b := by
    intro k
    cases e
    · exact Iff.rfl
    · exact ⟨fun h => by rw [← h]; simp [Endian.order], fun h => by rw [h]; simp [Endian.order]⟩
  have hmain : (Except.ok (e.order (leBytes f.size ((n : Int) % ((2 ^ (8 * f.size) : Nat) : Int)).toNat)) : Py Bytes) = .ok b ↔
      b.length = f.size ∧ leVal (e.order b) = n % 256 ^ f.size := by
    rw [hle, Int.toNat_natCast, Except.ok.injEq, hord, hout, order_length]
  unfold structPack
  simp only [hlo, hhi]
  by_cases hn : n < 256 ^ f.size
  · have hc : (0 : Int) ≤ (n : Int) ∧ (n : Int) < ((256 ^ f.size : Nat) : Int) := ⟨Int.natCast_nonneg _, Int.ofNat_lt.mpr hn⟩
    rw [if_pos hc, hmain]
    exact ⟨fun h => ⟨h.1, h.2, fun _ => hn⟩, fun h => ⟨h.1, h.2.1⟩⟩
  · have hc : ¬ ((0 : Int) ≤ (n : Int) ∧ (n : Int) < ((256 ^ f.size : Nat) : Int)) := fun h => hn (Int.ofNat_lt.mp h.2)
    rw [if_neg hc]
    cases v
    · simp only [if_neg h8]
      rw [hmain]
      exact ⟨fun h => ⟨h.1, h.2, fun h => (by cases h)⟩, fun h => ⟨h.1, h.2.1⟩⟩
    · simp only
      exact ⟨fun h => (by cases h), fun h => absurd (h.2.2 (by trivial)) hn⟩

theorem packVarLen_iff {rt : Runtime} {size n : Nat} {b : Bytes} : packVarLen rt size n = .ok b ↔
    (size = 1 ∨ size = 2 ∨ size = 4) ∧ b.length = size ∧ littleEndian b = n % 256 ^ size ∧ (rt.ver = .v27 → n < 256 ^ size) := by
  have hrev : ∀ k : Bytes, k.length = 1 → leVal k.reverse = leVal k := by
    intro k hk
    match k, hk with
    | [a], _ => rfl
  unfold packVarLen
  by_cases h1 : size = 1
  · subst h1
    rw [if_pos rfl]
    have := structPack_unsigned_iff (v := rt.ver) (e := .big) (f := .B) (n := n) (b := b) rfl (by decide)
    rw [show packData rt (.num (.int n)) .u8 = structPack rt.ver .big .B n from rfl, this, littleEndian_eq]
    simp only [IntFmt.size, Endian.order]
    constructor
    · rintro ⟨h1, h2, h3⟩
      exact ⟨by simp, h1, by rw [← hrev b h1]; exact h2, h3⟩
    · rintro ⟨-, h1, h2, h3⟩
      exact ⟨h1, by rw [hrev b h1]; exact h2, h3⟩
  · rw [if_neg h1]
    by_cases h2 : size = 2
    · subst h2
      rw [if_pos rfl]
      have := structPack_unsigned_iff (v := rt.ver) (e := .little) (f := .H) (n := n) (b := b) rfl (by decide)
      rw [show packData rt (.num (.int n)) .u16 = structPack rt.ver .little .H n from rfl, this, littleEndian_eq]
      simp only [IntFmt.size, Endian.order]
      exact ⟨fun h => ⟨by simp, h⟩, fun h => h.2⟩
    · rw [if_neg h2]
      by_cases h4 : size = 4
      · subst h4
        rw [if_pos rfl]
        have := structPack_unsigned_iff (v := rt.ver) (e := .little) (f := .I) (n := n) (b := b) rfl (by decide)
        rw [show packData rt (.num (.int n)) .u32 = structPack rt.ver .little .I n from rfl, this, littleEndian_eq]
        simp only [IntFmt.size, Endian.order]
        exact ⟨fun h => ⟨by simp, h⟩, fun h => h.2⟩
      · rw [if_neg h4]
        exact ⟨fun h => (by cases h), fun h => by rcases h.1 with h | h | h <;> contradiction⟩

theorem packData_variable_iff {rt : Runtime} {x : PyVal} {p : Bytes} : packData rt x .variable = .ok p ↔ ∃ s, textBytes x = some s ∧ p = s ++ [0] := by
  show packString x = .ok p ↔ _
  cases x <;> simp [packString, textBytes, eq_comm]

theorem serializeVar_iff {rt : Runtime} {b : BlockData} {v : TVar} {raw : Bytes} :
    serializeVar rt b v = .ok raw ↔ ∃ x, b.getItem v.name = .ok x ∧ SentField rt v x raw := by
  have hget : ∀ x, b.getItem v.name = .ok x ↔ ∃ vd, b.getVariable v.name = .ok vd ∧ vd.data = x := by
    intro x
    simp only [BlockData.getItem, bind_ok, Except.ok.injEq]
  unfold SentField serializeVar
  by_cases ht : v.type = .variable
  · simp only [ht, if_true, bind_ok, Except.ok.injEq, hget, packVarLen_iff, packData_variable_iff]
    constructor
    · rintro ⟨vd, h1, _, ⟨s, h2, rfl⟩, len, ⟨h3, h4, h5, h6⟩, rfl⟩
      rw [List.length_append] at h5 h6
      exact ⟨_, ⟨vd, h1, rfl⟩, h3, len, s, h2, rfl, h4, h5, h6⟩
    · rintro ⟨_, ⟨vd, h1, rfl⟩, h3, len, s, h2, rfl, h4, h5, h6⟩
      exact ⟨vd, h1, _, ⟨s, h2, rfl⟩, len, ⟨h3, h4, by rw [List.length_append]; exact h5, by rw [List.length_append]; exact h6⟩, rfl⟩
  · simp only [ht, if_false, bind_ok, Except.ok.injEq, hget]
    constructor
    · rintro ⟨vd, h1, _, h2, rfl⟩
      exact ⟨_, ⟨vd, h1, rfl⟩, h2⟩
    · rintro ⟨_, ⟨vd, h1, rfl⟩, h2⟩
      exact ⟨vd, h1, _, h2, rfl⟩

theorem serializeVars_iff {rt : Runtime} {b : BlockData} : ∀ {vs : List TVar} {raw : Bytes},
    serializeVars rt b vs = .ok raw ↔ SentVars rt b vs raw
  | [], raw => by simp [serializeVars, SentVars, eq_comm]
  | v :: vs, raw => by
    simp only [serializeVars, SentVars, bind_ok, Except.ok.injEq, serializeVar_iff, serializeVars_iff]
    constructor
    · rintro ⟨r₁, ⟨x, h1, h2⟩, r₂, h3, rfl⟩
      exact ⟨x, r₁, r₂, rfl, h1, h2, h3⟩
    · rintro ⟨x, r₁, r₂, rfl, h1, h2, h3⟩
      exact ⟨r₁, ⟨x, h1, h2⟩, r₂, h3, rfl⟩

theorem serializeInstances_iff {rt : Runtime} {vs : List TVar} : ∀ {l : List BlockData} {raw : Bytes},
    serializeInstances rt vs l = .ok raw ↔ SentInstances rt vs l raw
  | [], raw => by simp [serializeInstances, SentInstances, eq_comm]
  | b :: bs, raw => by
    simp only [serializeInstances, SentInstances, bind_ok, Except.ok.injEq, serializeVars_iff, serializeInstances_iff]
    constructor
    · rintro ⟨r₁, h1, r₂, h3, rfl⟩
      exact ⟨r₁, r₂, rfl, h1, h3⟩
    · rintro ⟨r₁, r₂, rfl, h1, h3⟩
      exact ⟨r₁, h1, r₂, h3, rfl⟩

theorem packCount_iff {v : PyVersion} {n : Nat} {b : Bytes} :
    structPack v .big .B n = .ok b ↔ b = [UInt8.ofNat n] ∧ (v = .v27 → n < 256) := by
  rw [structPack_unsigned_iff rfl (by decide)]
  simp only [IntFmt.size, Endian.order, Nat.pow_one]
  constructor
  · rintro ⟨h1, h2, h3⟩
    refine ⟨?_, h3⟩
    match b, h1 with
    | [a], _ =>
      have e : a.toNat = n % 256 := by simpa [leVal] using h2
      rw [List.cons.injEq]
      refine ⟨?_, rfl⟩
      rw [← UInt8.toNat_inj, e]
      simp
  · rintro ⟨rfl, h3⟩
    exact ⟨rfl, by simp [leVal], h3⟩

theorem buildBlock_iff {rt : Runtime} {tb : TBlock} {m : Message} {raw : Bytes} : buildBlock rt tb m = .ok raw ↔
    ∃ l r₁, m.getBlock tb.name = .ok l ∧ raw = (if tb.blockType = .variable then [UInt8.ofNat l.length] else []) ++ r₁ ∧
      (tb.blockType = .multiple → l.length = tb.number) ∧ (tb.blockType = .variable → rt.ver = .v27 → l.length < 256) ∧
      SentInstances rt tb.vars l r₁ := by
  unfold buildBlock
  simp only [bind_ok]
  constructor
  · rintro ⟨l, hl, h⟩
    split at h
    · cases h
    · rename_i hm
      have hm' : tb.blockType = .multiple → l.length = tb.number := by
        intro ht
        have : ¬ (tb.number ≠ l.length) := fun h => hm ⟨ht, h⟩
        simp only [Decidable.not_not] at this
        exact this.symm
      by_cases ht : tb.blockType = .variable
      · simp only [ht, if_true, bind_ok, packCount_iff, Except.ok.injEq, serializeInstances_iff] at h
        obtain ⟨c, ⟨rfl, hc⟩, body, hb, rfl⟩ := h
        exact ⟨l, body, hl, by rw [if_pos ht], hm', fun _ => hc, hb⟩
      · simp only [ht, if_false, ok_bind, bind_ok, Except.ok.injEq, serializeInstances_iff, List.nil_append] at h
        obtain ⟨body, hb, rfl⟩ := h
        exact ⟨l, body, hl, by rw [if_neg ht]; rfl, hm', fun h => absurd h ht, hb⟩
  · rintro ⟨l, r₁, hl, rfl, hm, hv, hi⟩
    refine ⟨l, hl, ?_⟩
    rw [if_neg (fun h => h.2 (hm h.1).symm)]
    by_cases ht : tb.blockType = .variable
    · simp only [ht, if_true, bind_ok, packCount_iff, Except.ok.injEq, serializeInstances_iff]
      exact ⟨_, ⟨rfl, hv ht⟩, r₁, hi, rfl⟩
    · simp only [ht, if_false, ok_bind, bind_ok, Except.ok.injEq, serializeInstances_iff, List.nil_append]
      exact ⟨r₁, hi, rfl⟩

theorem buildBlocks_iff {rt : Runtime} {m : Message} : ∀ {tbs : List TBlock} {raw : Bytes},
    buildBlocks rt m tbs = .ok raw ↔ SentBlocks rt m tbs raw
  | [], raw => by simp [buildBlocks, SentBlocks, eq_comm]
  | tb :: tbs, raw => by
    simp only [buildBlocks, SentBlocks, bind_ok, Except.ok.injEq, buildBlock_iff, buildBlocks_iff]
    constructor
    · rintro ⟨_, ⟨l, r₁, h1, rfl, h2, h3, h4⟩, r₂, h5, rfl⟩
      exact ⟨l, r₁, r₂, h1, rfl, h2, h3, h4, h5⟩
    · rintro ⟨l, r₁, r₂, h1, rfl, h2, h3, h4, h5⟩
      exact ⟨_, ⟨l, r₁, h1, rfl, h2, h3, h4⟩, r₂, h5, rfl⟩

/-- **C70.** `serialize` returns a datagram exactly if the template of the message exists and is not banned and the datagram is the one the protocol
prescribes (`SentDatagram`). -/
theorem C70_layout (env : SerEnv) (m : Message) (hf : m.sendFlags < 256) (hp : m.packetId < 2 ^ 31) (dg : Bytes) :
    serialize env m = .ok (some dg) ↔
      ∃ t, env.dict.getTemplate m.name = some t ∧ validateUdpMsg env.xml t.name = .ok true ∧ SentDatagram env.rt t m dg := by
  constructor
  · intro h
    obtain ⟨t, _, _, body, ht, hx, _, _, hb⟩ := serialize_inv h
    refine ⟨t, ht, hx, body, buildBlocks_iff.mp hb, ?_⟩
    rw [serialize_ok env m ht hx hf hp hb] at h
    cases h
    simp [extraBytes]
  · rintro ⟨t, ht, hx, body, hb, rfl⟩
    rw [serialize_ok env m ht hx hf hp (buildBlocks_iff.mpr hb)]
    simp [extraBytes]

/-- **C70, uniqueness.** There is at most one such datagram. -/
theorem C70_unique (rt : Runtime) (t : Template) (m : Message) (dg dg' : Bytes) (h : SentDatagram rt t m dg) (h' : SentDatagram rt t m dg') :
    dg = dg' := by
  obtain ⟨b, h1, rfl⟩ := h
  obtain ⟨b', h1', rfl⟩ := h'
  rw [← buildBlocks_iff] at h1 h1'
  rw [h1] at h1'
  cases h1'
  rfl

/-- The demo message and its datagram. -/
example : serialize demoSer demoMessage = .ok (some [0x40, 0, 0, 0, 9, 0, 0xff, 0xff, 1, 44, 77, 0, 0, 0, 3, 104, 105, 0, 2, 1, 0, 2, 0]) ∧
    demoMessage.sendFlags < 256 ∧ demoMessage.packetId < 2 ^ 31 := by decide +kernel

/-- **C54.** A Single block must be given, and every instance given is written, one after the other and without a count: a datagram for a template
whose first block is Single starts (after the message number) with the fields of all the instances in the message. -/
theorem C54_all_instances_written (env : SerEnv) (m : Message) (hf : m.sendFlags < 256) (hp : m.packetId < 2 ^ 31) (dg : Bytes)
    (h : serialize env m = .ok (some dg)) (t : Template) (ht : env.dict.getTemplate m.name = some t)
    (before after : List TBlock) (tb : TBlock) (htb : t.blocks = before ++ tb :: after) (hs : tb.blockType = .single) :
    ∃ l r₀ r₁ r₂, m.getBlock tb.name = .ok l ∧ SentBlocks env.rt m before r₀ ∧ SentInstances env.rt tb.vars l r₁ ∧ SentBlocks env.rt m after r₂ ∧
      dg = [UInt8.ofNat m.sendFlags] ++ idBytes m.packetId ++ [0] ++ t.msgNumHex ++ (r₀ ++ r₁ ++ r₂) ++
        (if t.name = "RegionHandshakeReply" then [0, 0, 0, 0] else []) := by
  obtain ⟨t', ht', _, body, hb, rfl⟩ := (C70_layout env m hf hp dg).mp h
  rw [ht] at ht'
  cases ht'
  rw [htb] at hb
  have key : ∀ (before : List TBlock) (body : Bytes), SentBlocks env.rt m (before ++ tb :: after) body →
      ∃ l r₀ r₁ r₂, m.getBlock tb.name = .ok l ∧ SentBlocks env.rt m before r₀ ∧ SentInstances env.rt tb.vars l r₁ ∧
        SentBlocks env.rt m after r₂ ∧ body = r₀ ++ r₁ ++ r₂ := by
    intro before
    induction before with
    | nil =>
      rintro body ⟨l, r₁, r₂, h1, rfl, _, _, h2, h3⟩
      exact ⟨l, [], r₁, r₂, h1, rfl, h2, h3, by simp [hs]⟩
    | cons b before ih =>
      rintro body ⟨l, r₁, r₂, h1, rfl, h2, h3, h4, h5⟩
      obtain ⟨l', q₀, q₁, q₂, g1, g2, g3, g4, rfl⟩ := ih r₂ h5
      refine ⟨l', _, q₁, q₂, g1, ⟨l, r₁, q₀, h1, rfl, h2, h3, h4, g2⟩, g3, g4, ?_⟩
      simp only [List.append_assoc]
  obtain ⟨l, r₀, r₁, r₂, h1, h2, h3, h4, rfl⟩ := key before body hb
  exact ⟨l, r₀, r₁, r₂, h1, h2, h3, h4, rfl⟩

end Pyogp
