import Verif.Props.Transmit
import Verif.Proofs.Serialize

/-! # C12 (converse direction), C14, C15, C54–C57: what `serialize` accepts and what it writes -/

namespace Pyogp
open Spec

/-- **C12.** On Python 2.7: *every* message for which `serialize` produces a datagram is received with the same content,
provided Single blocks are given once (not enforced, see `C54`), every fixed-width value is as wide as its field
(not enforced for FIXED, IPADDR and vectors, see `C04`), the message is not empty, and the zero-code and ack flags
are off (see `C55`, `C26`). -/
theorem C12_serialized_is_received (senv : SerEnv) (renv : DeserEnv) (st : DeserState) (t : Template) (m : Message)
    (dg : Bytes) (hver : senv.rt.ver = .v27) (hc : Connected senv renv t) (hwf : WFTemplate t) (hname : m.name = t.name)
    (hs : serialize senv m = .ok (some dg))
    (hknown : ∀ tb ∈ t.blocks, tb.blockType ≠ .unknown)
    (hsingle : ∀ tb ∈ t.blocks, tb.blockType = .single → ∀ l, m.getBlock tb.name = .ok l → l.length = 1)
    (hwidth : ∀ tb ∈ t.blocks, ∀ l, m.getBlock tb.name = .ok l → ∀ b ∈ l, ∀ v ∈ tb.vars, v.type ≠ .variable →
      ∀ x p, b.getItem v.name = .ok x → packData senv.rt x v.type = .ok p → p.length = v.size)
    (hne : t.blocks = [] ∨ ∃ tb ∈ t.blocks, ∃ l, m.getBlock tb.name = .ok l ∧ l ≠ [])
    (hz : m.sendFlags &&& 0x80 = 0) (ha : m.sendFlags &&& 0x10 = 0) :
    ∃ m', (deserialize renv st dg).1 = .ok (some m') ∧ SameContent senv.rt t m m' ∧ m'.sendFlags = m.sendFlags ∧
      m'.packetId = m.packetId ∧ m'.reliable = decide (m.sendFlags &&& 0x40 ≠ 0) ∧ m'.acks = [] := by
  obtain ⟨t', fl, pid, body, ht, _, hfl, hpid, hbody⟩ := serialize_inv hs
  rw [hname, hc.sender] at ht; cases ht
  have hf : m.sendFlags < 256 := by
    have h' : structPack senv.rt.ver .big .B m.sendFlags = .ok fl := hfl
    rw [hver] at h'
    have := (structPack_v27 h').2
    simp [IntFmt.hi, IntFmt.signed, IntFmt.size] at this; omega
  have hp : m.packetId < 2 ^ 31 := by
    have h' : structPack senv.rt.ver .big .i m.packetId = .ok pid := hpid
    rw [hver] at h'
    have := (structPack_v27 h').2
    simp [IntFmt.hi, IntFmt.signed, IntFmt.size] at this; omega
  have hm : Fills senv.rt t m := by
    refine ⟨hname, ?_, hne⟩
    intro tb htb
    obtain ⟨s, hs'⟩ := buildBlocks_inv hbody tb htb
    obtain ⟨l, hl, hmul, hvar, hvs⟩ := buildBlock_inv hs'
    refine ⟨l, hl, ?_, ?_⟩
    · unfold CountOk
      split
      · exact hsingle tb htb (by assumption) l hl
      · exact hmul (by assumption)
      · obtain ⟨c, hc'⟩ := hvar (by assumption)
        rw [hver] at hc'
        have := (structPack_v27 hc').2
        simp [IntFmt.hi, IntFmt.signed, IntFmt.size] at this; omega
      · exact hknown tb htb (by assumption)
    · intro b hb v hv
      obtain ⟨sv, hsv⟩ := hvs b hb v hv
      obtain ⟨x, p, hx, hp', hlen⟩ := serializeVar_inv hsv
      obtain ⟨y, hy⟩ := field_converse senv.rt hver (hwf.vars tb htb v hv) hp' (by
        unfold fits
        split
        · obtain ⟨l', hl'⟩ := hlen (by assumption)
          exact packVarLen_v27 hver hl'
        · exact hwidth tb htb l hl b hb v hv (by assumption) x p hx hp')
      exact ⟨x, y, hx, hy⟩
  obtain ⟨dg', m', h1, h2, h3⟩ := C12_roundtrip senv renv st t m hc hwf hm hf hz ha hp
  rw [hs] at h1; cases h1
  exact ⟨m', h2, h3⟩

example : demoSer.rt.ver = .v27 ∧ demoMessage.name = demoTemplate.name ∧
    okSome (serialize demoSer demoMessage) (fun _ => true) ∧
    (∀ tb ∈ demoTemplate.blocks, tb.blockType ≠ .unknown) := by decide +kernel

/-! ## C14 -/

/-- **C14.** `serialize` (datagram, `None` or exception) depends only on name, flags, packet id and the values of the
blocks and variables the template mentions; anything else in the message is ignored. -/
theorem C14_only_template_content (env : SerEnv) (m₁ m₂ : Message) (hn : m₁.name = m₂.name)
    (hf : m₁.sendFlags = m₂.sendFlags) (hp : m₁.packetId = m₂.packetId)
    (h : ∀ t, env.dict.getTemplate m₁.name = some t → AgreeOn t m₁ m₂) : serialize env m₁ = serialize env m₂ :=
  serialize_congr hn hf hp h

/-- **C14.** Blocks of different names may be given in any order, singly or in lists. -/
theorem C14_block_order (env : SerEnv) (name : String) (args₁ args₂ : List BlockArg)
    (h : ∀ n, named n (argBlocks args₁) = named n (argBlocks args₂)) :
    serialize env (Message.new name args₁) = serialize env (Message.new name args₂) := by
  apply serialize_congr
  · rw [Message.new, Message.new, parseBlocks_eq, parseBlocks_eq]
  · rw [Message.new, Message.new, parseBlocks_eq, parseBlocks_eq]
  · rw [Message.new, Message.new, parseBlocks_eq, parseBlocks_eq]
  · intro t _
    apply agreeOn_of_getBlock
    intro tb _
    apply getBlock_congr
    rw [new_get?, new_get?, h]

/-- **C14.** The keyword arguments of a block may be given in any order. -/
theorem C14_variable_order (name : String) (kw₁ kw₂ : List (String × PyVal)) (hperm : kw₁.Perm kw₂)
    (hn : (kw₁.map (·.1)).Nodup) (k : String) :
    (Block.mk' name kw₁).getItem k = (Block.mk' name kw₂).getItem k := by
  have hn2 : (kw₂.map (·.1)).Nodup := (hperm.map _).nodup_iff.mp hn
  rcases Decidable.em (k ∈ kw₁.map (·.1)) with hk | hk
  · obtain ⟨p, hp, rfl⟩ := List.mem_map.mp hk
    rw [mk'_getItem hn (x := p.2) hp, mk'_getItem hn2 (x := p.2) (hperm.mem_iff.mp hp)]
  · rw [mk'_getItem_none hk, mk'_getItem_none]
    exact fun h => hk ((hperm.map _).mem_iff.mpr h)

/-- **C14.** Blocks of one name are received in the order in which they were added: the `i`-th block named `tb.name`
among the arguments is the `i`-th instance at the receiver. -/
theorem C14_instances_in_order (senv : SerEnv) (renv : DeserEnv) (st : DeserState) (t : Template) (args : List BlockArg)
    (pid : Nat) (hc : Connected senv renv t) (hwf : WFTemplate t)
    (hm : Fills senv.rt t { Message.new t.name args with packetId := pid }) (hp : pid < 2 ^ 31) :
    ∃ dg m', serialize senv { Message.new t.name args with packetId := pid } = .ok (some dg) ∧
      (deserialize renv st dg).1 = .ok (some m') ∧
      ∀ tb ∈ t.blocks, ∀ (i : Nat) (b : BlockData), (named tb.name (argBlocks args))[i]? = some b →
        ∃ l' b', m'.getBlock tb.name = .ok l' ∧ l'[i]? = some b' ∧
          ∀ v ∈ tb.vars, ∀ x, b.getItem v.name = .ok x → ∃ y, receivedAs senv.rt v x = some y ∧ b'.getItem v.name = .ok y := by
  have hfl : (Message.new t.name args).sendFlags = 0 := by rw [Message.new, parseBlocks_eq]
  obtain ⟨dg, m', h1, h2, h3, -⟩ := C12_roundtrip senv renv st t { Message.new t.name args with packetId := pid } hc hwf hm
    (by rw [show ({ Message.new t.name args with packetId := pid } : Message).sendFlags = 0 from hfl]; omega)
    (by rw [show ({ Message.new t.name args with packetId := pid } : Message).sendFlags = 0 from hfl]; rfl)
    (by rw [show ({ Message.new t.name args with packetId := pid } : Message).sendFlags = 0 from hfl]; rfl) hp
  refine ⟨dg, m', h1, h2, ?_⟩
  intro tb htb i b hb
  have hne : named tb.name (argBlocks args) ≠ [] := by intro h; rw [h] at hb; cases hb
  have hg : ({ Message.new t.name args with packetId := pid } : Message).getBlock tb.name = .ok (named tb.name (argBlocks args)) := by
    apply getBlock_ok.mpr
    show (Message.new t.name args).blocks.get? tb.name = _
    rw [new_get?, if_neg hne]
  obtain ⟨l', hl', _, hi⟩ := h3.present tb htb _ hg hne
  obtain ⟨b', hb', _, _, _, hv⟩ := hi i b hb
  exact ⟨l', b', hl', hb', hv⟩

example : named "A" (argBlocks [.one (Block.mk' "A" []), .many [Block.mk' "B" [], Block.mk' "A" [("x", .none)]]]) =
    named "A" (argBlocks [.one (Block.mk' "B" []), .one (Block.mk' "A" []), .one (Block.mk' "A" [("x", .none)])]) := by
  decide +kernel

example : AgreeOn demoTemplate demoMessage (demoMessage.addBlock (Block.mk' "Other" [("x", .none)])) := by
  apply agreeOn_of_getBlock; decide +kernel

/-! ## C15 -/

/-- **C15.** A datagram is produced only for a message whose name is in the template, that message.xml allows on UDP, that
has every block of its template, with exactly the declared count for Multiple blocks, and every variable in every
instance.  (Contrapositive: anything else is rejected.) -/
theorem C15_accepted_matches_template (env : SerEnv) (m : Message) (dg : Bytes) (h : serialize env m = .ok (some dg)) :
    ∃ t, env.dict.getTemplate m.name = some t ∧ validateUdpMsg env.xml t.name = .ok true ∧
      ∀ tb ∈ t.blocks, ∃ l, m.getBlock tb.name = .ok l ∧ (tb.blockType = .multiple → l.length = tb.number) ∧
        ∀ b ∈ l, ∀ v ∈ tb.vars, ∃ x, b.getItem v.name = .ok x := by
  obtain ⟨t, _, _, body, ht, hx, _, _, hb⟩ := serialize_inv h
  refine ⟨t, ht, hx, fun tb htb => ?_⟩
  obtain ⟨s, hs⟩ := buildBlocks_inv hb tb htb
  obtain ⟨l, hl, hmul, _, hv⟩ := buildBlock_inv hs
  refine ⟨l, hl, hmul, fun b hb v hv' => ?_⟩
  obtain ⟨sv, hsv⟩ := hv b hb v hv'
  obtain ⟨x, _, hx, _⟩ := serializeVar_inv hsv
  exact ⟨x, hx⟩

/-- **C15.** `serialize` returns `None` exactly when message.xml routes the message elsewhere; every other refusal is an
exception. -/
theorem C15_none_iff_banned (env : SerEnv) (m : Message) :
    serialize env m = .ok none ↔ ∃ t, env.dict.getTemplate m.name = some t ∧ validateUdpMsg env.xml t.name = .ok false := by
  constructor
  · intro h
    unfold serialize at h
    split at h
    · cases h
    · rename_i t ht
      simp only [bind_ok] at h
      obtain ⟨al, hal, h⟩ := h
      cases al
      · exact ⟨t, ht, hal⟩
      · simp only [Bool.not_true, Bool.false_eq_true, if_false, bind_ok] at h
        obtain ⟨_, _, _, _, _, _, _, _, h⟩ := h
        cases h
  · rintro ⟨t, ht, hx⟩
    simp [serialize, ht, hx, ok_bind]

/-- **C15.** A name that is not in the template raises. -/
theorem C15_unknown_name_raises (env : SerEnv) (m : Message) (h : env.dict.getTemplate m.name = none) :
    ∃ e, serialize env m = .error e := ⟨.attributeError, by simp [serialize, h]⟩

/-- **C15.** A missing block, a missing variable or a wrong Multiple count raises (for a message UDP may carry). -/
theorem C15_mismatch_raises (env : SerEnv) (m : Message) (t : Template) (ht : env.dict.getTemplate m.name = some t)
    (hx : validateUdpMsg env.xml t.name = .ok true) (tb : TBlock) (htb : tb ∈ t.blocks)
    (h : (∀ l, m.getBlock tb.name ≠ .ok l) ∨
      ∃ l, m.getBlock tb.name = .ok l ∧ ((tb.blockType = .multiple ∧ l.length ≠ tb.number) ∨
        ∃ b ∈ l, ∃ v ∈ tb.vars, ∀ x, b.getItem v.name ≠ .ok x)) :
    ∃ e, serialize env m = .error e := by
  cases hs : serialize env m with
  | error e => exact ⟨e, rfl⟩
  | ok r =>
    exfalso
    cases r with
    | none =>
      obtain ⟨t', ht', hx'⟩ := (C15_none_iff_banned env m).mp hs
      rw [ht] at ht'; cases ht'
      rw [hx] at hx'; cases hx'
    | some dg =>
      obtain ⟨t', ht', _, hall⟩ := C15_accepted_matches_template env m dg hs
      rw [ht] at ht'; cases ht'
      obtain ⟨l, hl, hmul, hv⟩ := hall tb htb
      rcases h with h | ⟨l', hl', h⟩
      · exact h l hl
      · rw [hl] at hl'; cases hl'
        rcases h with ⟨h1, h2⟩ | ⟨b, hb, v, hv', h⟩
        · exact h2 (hmul h1)
        · obtain ⟨x, hx⟩ := hv b hb v hv'
          exact h x hx

/-- Missing block, missing variable. -/
example : serialize demoSer (Message.new "Demo" [.one (Block.mk' "Head" [("Id", .num (.int 77)), ("Name", .str [])])]) = .error .keyError ∧
    serialize demoSer (Message.new "Demo" [.one (Block.mk' "Head" [("Id", .num (.int 77))]), .one (Block.mk' "Items" [("N", .num (.int 1))])])
      = .error .keyError := by decide +kernel
/-- A banned message. -/
example : serialize ⟨demoRt, demoDict, [("Demo", some "llsd")]⟩ demoMessage = .ok none := by decide +kernel

/-! ## C54: Single blocks -/

/-- The payload of two instances of the Single block `Head`. -/
def twoHeads : Message :=
  Message.new "Demo" [.many [Block.mk' "Head" [("Id", .num (.int 1)), ("Name", .str [])], Block.mk' "Head" [("Id", .num (.int 2)), ("Name", .str [])]],
    .one (Block.mk' "Items" [("N", .num (.int 7))])]

/-- **C54, consequence:** `serialize` accepts a Single block given twice, and the receiver misreads the message: it sees one
`Head` and takes the second one's bytes for the items. -/
theorem C54_single_count_not_enforced : ∃ dg m', serialize demoSer twoHeads = .ok (some dg) ∧
    (deserialize demoDeser {} dg).1 = .ok (some m') ∧ (twoHeads.getBlock "Head").map List.length = .ok 2 ∧
    (m'.getBlock "Head").map List.length = .ok 1 ∧ (twoHeads.getBlock "Items").map List.length = .ok 1 ∧
    (m'.getBlock "Items").map List.length = .ok 2 := by
  have h1 : serialize demoSer twoHeads = .ok (some
      [0, 0, 0, 0, 0, 0, 0xff, 0xff, 1, 44, 1, 0, 0, 0, 1, 0, 2, 0, 0, 0, 1, 0, 1, 7, 0]) := by decide +kernel
  obtain ⟨m', h2, h3⟩ := of_okSome (x := (deserialize demoDeser {}
      [0, 0, 0, 0, 0, 0, 0xff, 0xff, 1, 44, 1, 0, 0, 0, 1, 0, 2, 0, 0, 0, 1, 0, 1, 7, 0]).1)
    (p := fun m' => decide ((m'.getBlock "Head").map List.length = .ok 1 ∧ (m'.getBlock "Items").map List.length = .ok 2))
    (by decide +kernel)
  have h3 := of_decide_eq_true h3
  exact ⟨_, m', h1, h2, by decide +kernel, h3.1, by decide +kernel, h3.2⟩

/-- **C54, missing.** A Single block that is not given at all is rejected. -/
theorem C54_missing_single (env : SerEnv) (m : Message) (t : Template) (ht : env.dict.getTemplate m.name = some t)
    (hx : validateUdpMsg env.xml t.name = .ok true) (tb : TBlock) (htb : tb ∈ t.blocks)
    (h : ∀ l, m.getBlock tb.name ≠ .ok l) : ∃ e, serialize env m = .error e :=
  C15_mismatch_raises env m t ht hx tb htb (.inl h)

/-! ## C55: the zero-code flag on outgoing messages -/

/-- **C55.** The flags only determine the first byte of the datagram; in particular the payload is
never zero-coded. -/
theorem C55_payload_ignores_flags (env : SerEnv) (m : Message) (f : Nat) (hf : m.sendFlags < 256) (hf' : f < 256) (dg : Bytes)
    (h : serialize env m = .ok (some dg)) :
    serialize env { m with sendFlags := f } = .ok (some (UInt8.ofNat f :: dg.tail)) := by
  obtain ⟨t, fl, pid, body, ht, hx, hfl, hpid, hb⟩ := serialize_inv h
  have hb' : ∀ tbs, buildBlocks env.rt { m with sendFlags := f } tbs = buildBlocks env.rt m tbs := by
    intro tbs
    exact buildBlocks_congr (fun _ _ => rfl)
  rw [packU8 env.rt hf] at hfl
  cases hfl
  have h0 : packData env.rt (.num (.int 0)) .u8 = .ok [0] := packU8 env.rt (n := 0) (by omega)
  simp only [serialize, ht, hx, ok_bind, packU8 env.rt hf, hpid, h0, hb, Bool.not_true, Bool.false_eq_true, if_false,
    Except.ok.injEq, Option.some.injEq] at h
  subst h
  simp only [serialize, ht, hx, ok_bind, packU8 env.rt hf', hpid, h0, hb', hb, Bool.not_true, Bool.false_eq_true, if_false]
  simp

/-- **C55, consequence:** a message sent with the zero-code flag is not received as sent: its zero bytes are taken for runs. -/
theorem C55_zerocode_flag_breaks_message : ∃ dg, serialize demoSer { demoMessage with sendFlags := 0x80 } = .ok (some dg) ∧
    ∀ m', (deserialize demoDeser {} dg).1 = .ok (some m') → ¬ SameContent demoRt demoTemplate demoMessage m' := by
  refine ⟨[0x80, 0, 0, 0, 9, 0, 0xff, 0xff, 1, 44, 77, 0, 0, 0, 3, 104, 105, 0, 2, 1, 0, 2, 0], by decide +kernel, ?_⟩
  intro m' h hc
  obtain ⟨l', hl', _, _⟩ := hc.present _ (List.mem_cons_of_mem _ List.mem_cons_self) _ rfl (by decide +kernel)
  obtain ⟨m'', h2, h3⟩ := of_okSome
    (x := (deserialize demoDeser {} [0x80, 0, 0, 0, 9, 0, 0xff, 0xff, 1, 44, 77, 0, 0, 0, 3, 104, 105, 0, 2, 1, 0, 2, 0]).1)
    (p := fun m' => decide (m'.getBlock "Items" = .error .keyError)) (by decide +kernel)
  have h3 := of_decide_eq_true h3
  rw [h2] at h; cases h
  rw [h3] at hl'; cases hl'

theorem zeroCoded_self : ∀ p : Bytes, (∀ c ∈ p, c ≠ 0) → ZeroCoded p p
  | [], _ => .nil
  | c :: p, h => .lit (h c List.mem_cons_self) (zeroCoded_self p (fun c hc => h c (List.mem_cons_of_mem _ hc)))

/-- **C55, harmless case.** With the flag off what is sent is what is received (`C12`); with it on, a message whose datagram has no zero bytes
after the header is still received as sent. -/
theorem C55_no_zero_bytes (senv : SerEnv) (renv : DeserEnv) (st : DeserState) (t : Template) (m : Message)
    (hc : Connected senv renv t) (hwf : WFTemplate t) (hm : Fills senv.rt t m) (hf : m.sendFlags < 256)
    (hz : m.sendFlags &&& 0x80 ≠ 0) (ha : m.sendFlags &&& 0x10 = 0) (hp : m.packetId < 2 ^ 31) :
    ∃ dg, serialize senv m = .ok (some dg) ∧ ((∀ c ∈ dg.drop 6, c ≠ 0) →
      ∃ m', (deserialize renv st dg).1 = .ok (some m') ∧ SameContent senv.rt t m m' ∧ m'.sendFlags = m.sendFlags ∧
        m'.packetId = m.packetId ∧ m'.reliable = decide (m.sendFlags &&& 0x40 ≠ 0) ∧ m'.acks = []) := by
  obtain ⟨dg, hs, h⟩ := C13_zero_coded_and_acked senv renv st t m hc hwf hm hf hp
  have hto : (UInt8.ofNat m.sendFlags).toNat = m.sendFlags := by simp; omega
  refine ⟨dg, hs, fun hnz => ?_⟩
  obtain ⟨m', h1, h2, h3, h4, _, h5, h6⟩ := h (UInt8.ofNat m.sendFlags) (dg.drop 6) []
    (by simp only [Encoded, hto, if_pos hz]; exact zeroCoded_self _ hnz) ⟨by simp, by simp, by simp⟩
  have hdg : UInt8.ofNat m.sendFlags :: (dg.drop 1).take 5 ++ dg.drop 6 ++ ackTrailer (UInt8.ofNat m.sendFlags) [] = dg := by
    obtain ⟨tail, rfl⟩ : ∃ tail, dg = UInt8.ofNat m.sendFlags :: (idBytes m.packetId ++ [0] ++ tail) := by
      obtain ⟨t, fl, pid, body, ht, hx, _, _, hb⟩ := serialize_inv hs
      rw [serialize_ok senv m ht hx hf hp hb] at hs
      cases hs
      exact ⟨_, rfl⟩
    simp [ackTrailer, hto, ha, idBytes]
  rw [hdg] at h1
  exact ⟨m', h1, h2, by rw [h5, hto], h3, by rw [h6, hto], h4⟩

/-! ## C56: byte order of appended acks -/

/-- Reverse the four bytes of an id. -/
def swap32 (n : Nat) : Nat := leVal (idBytes n)

/-- **C56.** If a peer appends ack ids in the byte order in which packet ids are written in the header
(most significant byte first), the receiver reports every id with its bytes reversed. -/
theorem C56_acks_byte_swapped (senv : SerEnv) (renv : DeserEnv) (st : DeserState) (t : Template) (m : Message)
    (hc : Connected senv renv t) (hwf : WFTemplate t) (hm : Fills senv.rt t m) (hf : m.sendFlags < 256)
    (hp : m.packetId < 2 ^ 31) (flags : UInt8) (hflag : flags.toNat &&& 0x10 ≠ 0) (hz : flags.toNat &&& 0x80 = 0)
    (ids : List Nat) (hids : ids.length ≤ 255) :
    ∃ dg, serialize senv m = .ok (some dg) ∧
      ∃ m', (deserialize renv st (flags :: (dg.drop 1) ++ (ids.flatMap idBytes ++ [UInt8.ofNat ids.length]))).1 = .ok (some m') ∧
        SameContent senv.rt t m m' ∧ m'.acks = ids.map swap32 := by
  obtain ⟨dg, hs, h⟩ := C13_zero_coded_and_acked senv renv st t m hc hwf hm hf hp
  refine ⟨dg, hs, ?_⟩
  have hb : ∀ n, ackBytes (swap32 n) = idBytes n := by
    intro n
    have h2 := leBytes_leVal (idBytes n)
    rw [swap32]
    have hlen : (idBytes n).length = 4 := rfl
    rw [hlen] at h2
    generalize hk : leVal (idBytes n) = k at *
    rw [← h2]
    simp only [ackBytes, leBytes, Nat.reducePow]
    have e1 : ∀ x, UInt8.ofNat (x % 256) = UInt8.ofNat x := by
      intro x; rw [← UInt8.toNat_inj]; simp
    simp only [e1, Nat.div_div_eq_div_mul, Nat.reduceMul]
  obtain ⟨m', h1, h2, _, h4, _⟩ := h flags (dg.drop 6) (ids.map swap32) (by simp [Encoded, hz]) ⟨by simpa, by
    intro a ha
    obtain ⟨n, _, rfl⟩ := List.mem_map.mp ha
    have := leVal_lt (idBytes n)
    have e4 : (idBytes n).length = 4 := rfl
    rw [e4] at this
    exact this, fun h => absurd h hflag⟩
  refine ⟨m', ?_, h2, h4⟩
  rw [← h1]
  have e : (ids.map swap32).flatMap ackBytes = ids.flatMap idBytes := by
    rw [List.flatMap_map]
    congr 1
    funext n; exact hb n
  simp only [ackTrailer, if_pos hflag, e, List.length_map]
  congr 3
  have : dg.drop 1 = (dg.drop 1).take 5 ++ (dg.drop 1).drop 5 := (List.take_append_drop 5 _).symm
  rw [List.drop_drop] at this
  simp only [List.cons_append]
  rw [← this]

/-- **C56, example:** the ack of packet 1 is reported as an ack of packet 16777216. -/
theorem C56_ack_of_one : swap32 1 = 16777216 ∧ swap32 0x01020304 = 0x04030201 := by decide +kernel

/-! ## C57: extra header bytes -/

/-- **C57, consequence:** byte 5 of a datagram announces extra header bytes before the message number.  They are skipped when
the body is located but not when the message number is read: the message of a datagram with one extra byte is
not recognised, although without it it is. -/
theorem C57_extra_header_not_skipped :
    ∃ body, (∃ m', (deserialize demoDeser {} ([0x40, 0, 0, 0, 9, 0] ++ body)).1 = .ok (some m')) ∧
      (deserialize demoDeser {} ([0x40, 0, 0, 0, 9, 1, 0xaa] ++ body)).1 = .ok none := by
  refine ⟨[0xff, 0xff, 1, 44, 77, 0, 0, 0, 3, 104, 105, 0, 2, 1, 0, 2, 0], ?_, by decide +kernel⟩
  obtain ⟨m', h, _⟩ := of_okSome (x := (deserialize demoDeser {}
    ([0x40, 0, 0, 0, 9, 0] ++ [0xff, 0xff, 1, 44, 77, 0, 0, 0, 3, 104, 105, 0, 2, 1, 0, 2, 0])).1) (p := fun _ => true)
    (by decide +kernel)
  exact ⟨m', h⟩

/-- **C57, sending.** The library itself never announces extra bytes, so its own datagrams are not affected. -/
theorem C57_none_sent (env : SerEnv) (m : Message) (dg : Bytes) (h : serialize env m = .ok (some dg)) :
    dg[5]? = some 0 := by
  obtain ⟨t, fl, pid, body, ht, hx, hfl, hpid, hb⟩ := serialize_inv h
  have h0 : packData env.rt (.num (.int 0)) .u8 = .ok [0] := packU8 env.rt (n := 0) (by omega)
  have l1 : fl.length = 1 := structPack_length (show structPack env.rt.ver .big .B m.sendFlags = .ok fl from hfl)
  have l2 : pid.length = 4 := structPack_length (show structPack env.rt.ver .big .i m.packetId = .ok pid from hpid)
  simp only [serialize, ht, hx, ok_bind, hfl, hpid, h0, hb, Bool.not_true, Bool.false_eq_true, if_false,
    Except.ok.injEq, Option.some.injEq] at h
  subst h
  simp only [List.append_assoc]
  rw [← List.append_assoc, List.getElem?_append_right (by simp [l1, l2])]
  simp [l1, l2]

end Pyogp
