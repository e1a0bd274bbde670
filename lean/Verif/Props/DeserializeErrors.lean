import Verif.Proofs.DeserializeErrors
import Verif.Props.Reading

/-! # C92: what an exception of `deserialize` is about -/

namespace Pyogp
open Spec

/-- **C92** (same program). Without the attributes of the exceptions, the `deserialize` of this model is that of the others. -/
theorem C92_same_outcome (env : DeserEnv) (st : DeserState) (dg : Bytes) :
    deserialize env st dg = (match (deserializeE env st dg).1 with
      | .ok r => .ok r
      | .error e => .error e.kind, (deserializeE env st dg).2) := by
  rw [← deserialize_forget]
  cases (deserializeE env st dg).1 <;> rfl

theorem forgetE_error {α : Type} {x : Except DeserExc α} {e : DeserExc} (h : x = .error e) : forgetE x = .error e.kind := by rw [h]; rfl

theorem deserializeE_error {env : DeserEnv} {st : DeserState} {dg : Bytes} {e : DeserExc} (h : (deserializeE env st dg).1 = .error e) :
    (deserialize env st dg).1 = .error e.kind := by
  rw [C92_same_outcome, h]

/-- Reading a framed datagram, with the attributes of exceptions. -/
theorem deserializeE_framed {env : DeserEnv} {st : DeserState} {dg : Bytes} {x : Frame} (h : Framed dg x) :
    (deserializeE env st dg).1 = (match env.dict.getTemplateByPair x.freq x.num with
      | none => .ok none
      | some t => (do
        let allowed ← plainE (validateUdpMsg env.xml t.name)
        if !allowed then .ok none
        else
          let want ← plainE (wantsParse env t.name)
          if want then runDecodeE env.rt t.name (some t) (x.packet ++ ackTrailer x.flags x.acks) else .ok none)) := by
  obtain ⟨buf, hs, he, hlen, _, _, _, hdh⟩ := framed_parts h
  have hl : ¬ x.packet.length ≤ 6 := by omega
  unfold deserializeE
  simp only [hs, he, deserializeRestE, decodeTemplateE, hl, if_false, hdh]
  cases env.dict.getTemplateByPair x.freq x.num with
  | none => rfl
  | some t => rfl

theorem plainE_bind_error {α β : Type} {x : Py α} {f : α → Except DeserExc β} {e : DeserExc} (h : (plainE x >>= f) = .error e) :
    (∃ e', x = .error e' ∧ e = .other e') ∨ ∃ a, x = .ok a ∧ f a = .error e := by
  cases x with
  | error e' => cases h; exact .inl ⟨e', rfl, rfl⟩
  | ok a => exact .inr ⟨a, rfl, h⟩

theorem forgetS_is_ok {α : Type} {x : DecE α} {a : α} (h : forgetS x = .ok a) : x = .ok a := by cases x <;> cases h; rfl
theorem forgetE_is_ok {α : Type} {x : Except DeserExc α} {a : α} (h : forgetE x = .ok a) : x = .ok a := by cases x <;> cases h; rfl

/-- Reading the body of a framed datagram. -/
theorem decodeDataE_framed {dg : Bytes} {x : Frame} (h : Framed dg x) (rt : Runtime) (t : Template) :
    decodeDataE rt (some t) (x.packet ++ ackTrailer x.flags x.acks) = (do
      let r ← decodeBlocksE rt (x.packet ++ ackTrailer x.flags x.acks) t.blocks (6 + freqBytes t.freq + x.off.toNat) []
      if r.1.length = 0 ∧ 0 < t.blocks.length then .error (.exc (.deserialization "message" "message is empty"))
      else .ok { name := t.name, sendFlags := x.flags.toNat, packetId := x.pid, acks := x.acks, numAcks := x.acks.length,
                 reliable := decide (x.flags.toNat &&& 0x40 ≠ 0), blocks := r.1 }) := by
  obtain ⟨hi, hu, hack, hoff⟩ := framed_steps h rt t
  rw [← unpackInt_forget] at hu hoff
  rw [← decodeAckPart_forget] at hack
  unfold decodeDataE
  simp only [ok_bind, hi, plainE, liftE, forgetE_is_ok hu, forgetE_is_ok hoff, Int.toNat_natCast, forgetS_is_ok hack]
  congr 1
  funext r
  split
  · rfl
  · rw [show flagReliable = 0x40 from rfl]
    by_cases hr : x.flags.toNat &&& 0x40 = 0
    · simp [hr]
    · simp [hr]

/-- An exception of `__decode_data` is one of the blocks or the empty message. -/
theorem decodeDataE_exc {dg : Bytes} {x : Frame} (h : Framed dg x) (rt : Runtime) (t : Template) (hw : ∀ tb ∈ t.blocks, ∀ v ∈ tb.vars, WFVar v)
    {e : DeserExc} (he : decodeDataE rt (some t) (x.packet ++ ackTrailer x.flags x.acks) = .error (.exc e)) :
    (e = .unpacking [] ∧ NoCount rt t.blocks (bodyOf x t)) ∨
    (e = .deserialization "message" "message is empty" ∧ ∃ raw post bss, bodyOf x t = raw ++ post ∧ BlocksBytes rt t.blocks raw bss ∧ t.blocks ≠ [] ∧
      ∀ bs ∈ bss, bs = []) := by
  have hbody : bodyOf x t = (x.packet ++ ackTrailer x.flags x.acks).drop (6 + freqBytes t.freq + x.off.toNat) := by
    unfold bodyOf; rw [numPrefix_length]
  rw [decodeDataE_framed h rt t] at he
  rw [hbody]
  generalize (x.packet ++ ackTrailer x.flags x.acks) = data at *
  generalize 6 + freqBytes t.freq + x.off.toNat = pos at *
  have hf := decodeBlocks_forget rt data t.blocks pos []
  rcases blocks_cases rt hw (data.drop pos) with ⟨raw, post, bss, hd, hb⟩ | hs | hs
  · rw [decodeBlocks_at hw hd hb] at hf
    rw [forgetS_is_ok hf, ok_bind] at he
    split at he
    · rename_i h0
      cases he
      exact .inr ⟨rfl, raw, post, bss, hd, hb, List.length_pos_iff.mp h0.2, flatten_empty.mp h0.1⟩
    · cases he
  · rw [decodeBlocks_short hw hs] at hf
    cases hx : decodeBlocksE rt data t.blocks pos [] with
    | ok r => rw [hx] at hf; cases hf
    | error s =>
      rw [hx] at hf he
      cases s with
      | retNone => cases he
      | exc e => cases hf
  · rw [decodeBlocks_noCount hw hs] at hf
    cases hx : decodeBlocksE rt data t.blocks pos [] with
    | ok r => rw [hx] at hf; cases hf
    | error s =>
      rw [hx] at he
      cases he
      exact .inl ⟨decodeBlocksE_exc hw hx, hs⟩

theorem runDecodeE_error {dg : Bytes} {x : Frame} (h : Framed dg x) (rt : Runtime) (t : Template) (hw : ∀ tb ∈ t.blocks, ∀ v ∈ tb.vars, WFVar v)
    {e : DeserExc} (he : runDecodeE rt t.name (some t) (x.packet ++ ackTrailer x.flags x.acks) = .error e) :
    (e = .deserializationOf t.name (.unpacking []) ∧ NoCount rt t.blocks (bodyOf x t)) ∨
    (e = .deserialization "message" "message is empty" ∧ ∃ raw post bss, bodyOf x t = raw ++ post ∧ BlocksBytes rt t.blocks raw bss ∧ t.blocks ≠ [] ∧
      ∀ bs ∈ bss, bs = []) := by
  unfold runDecodeE at he
  cases hd : decodeDataE rt (some t) (x.packet ++ ackTrailer x.flags x.acks) with
  | ok m => rw [hd] at he; cases he
  | error s =>
    rw [hd] at he
    cases s with
    | retNone => cases he
    | exc e' =>
      simp only at he
      rcases decodeDataE_exc h rt t hw hd with ⟨rfl, h1⟩ | ⟨rfl, h1⟩
      · rw [if_pos (by decide)] at he; cases he; exact .inl ⟨rfl, h1⟩
      · rw [if_neg (by decide)] at he; cases he; exact .inr ⟨rfl, h1⟩

theorem deserializeE_onlyHeader {env : DeserEnv} {st : DeserState} {dg : Bytes} (h : OnlyHeader dg) :
    (deserializeE env st dg).1 = .error (.deserialization "packet length" "template mismatch") := by
  obtain ⟨flags, off, buf, packet, hb, hne, h5, hex, hl⟩ := h
  obtain ⟨acks, hs⟩ := before_stripAcks hb
  unfold deserializeE
  simp only [hs, expandPacket_of (before_head hb hne) h5 hex, deserializeRestE, decodeTemplateE, hl, if_true]

/-- What goes wrong has a complaint. -/
theorem complaint_of_error {env : DeserEnv} (hc : Configured env) {st : DeserState} {dg : Bytes} {e : DeserExc}
    (h : (deserializeE env st dg).1 = .error e) : Complaint env dg e := by
  have hk := deserializeE_error h
  rcases C88_frames dg with ⟨x, hx⟩ | ⟨e', ht⟩ | ho
  · rw [deserializeE_framed hx] at h
    cases ht : env.dict.getTemplateByPair x.freq x.num with
    | none => rw [ht] at h; cases h
    | some t =>
      rw [ht] at h
      simp only at h
      have hw := hc.templates _ _ t ht
      obtain ⟨names, hn⟩ := hc.handler
      have hp : Parsed env t.name := by
        apply Classical.byContradiction
        intro hp
        rw [deserialize_framed hx, ht] at hk
        simp only at hk
        rw [parsed_iff hc ht, if_neg hp] at hk
        cases hk
      have hr : runDecodeE env.rt t.name (some t) (x.packet ++ ackTrailer x.flags x.acks) = .error e := by
        obtain ⟨h1, h2⟩ := hp
        have hv : validateUdpMsg env.xml t.name = .ok true := by
          unfold validateUdpMsg
          rcases h1 with h | h <;> rw [h] <;> simp
        rw [hv, wantsParse_of h2] at h
        exact h
      rcases runDecodeE_error hx env.rt t hw hr with ⟨rfl, h1⟩ | ⟨rfl, raw, post, bss, h1, h2, h3, h4⟩
      · exact .noCount x t hx ht hp h1
      · exact .empty x t raw post bss hx ht hp h1 h2 h3 h4
  · have h1 := (C16_truncated env hc st dg e').mpr ht
    rw [hk] at h1
    have hee : e.kind = e' := Except.error.inj h1.1
    have : e = .other e' := by
      cases e with
      | other x => exact congrArg _ hee
      | deserialization l r => exact absurd hee.symm h1.2
      | deserializationOf l r => exact absurd hee.symm h1.2
      | unpacking d => cases ht <;> cases hee
      | templateNotFound c => cases ht <;> cases hee
    rw [this]
    exact .truncated e' ht
  · rw [deserializeE_onlyHeader ho] at h
    cases h
    exact .onlyHeader ho

/-- **C92** (what it is about). `deserialize` raises an exception exactly when the datagram deserves one, and then that one. -/
theorem C92_complaint (env : DeserEnv) (hc : Configured env) (st : DeserState) (dg : Bytes) (e : DeserExc) :
    (deserializeE env st dg).1 = .error e ↔ Complaint env dg e := by
  refine ⟨complaint_of_error hc, ?_⟩
  have parsed : ∀ {x : Frame} {t : Template}, Framed dg x → env.dict.getTemplateByPair x.freq x.num = some t → Parsed env t.name →
      (deserializeE env st dg).1 = runDecodeE env.rt t.name (some t) (x.packet ++ ackTrailer x.flags x.acks) := by
    intro x t hx ht hp
    obtain ⟨h1, h2⟩ := hp
    have hv : validateUdpMsg env.xml t.name = .ok true := by
      unfold validateUdpMsg
      rcases h1 with h | h <;> rw [h] <;> simp
    rw [deserializeE_framed hx, ht]
    simp only
    rw [hv, wantsParse_of h2]
    rfl
  intro h
  cases h with
  | truncated e ht =>
    obtain ⟨h1, h2⟩ := (C16_truncated env hc st dg e).mpr ht
    cases hr : (deserializeE env st dg).1 with
    | ok r => rw [C92_same_outcome, hr] at h1; cases h1
    | error e'' =>
      have hk := deserializeE_error hr
      rw [h1] at hk
      have hee : e = e''.kind := Except.error.inj hk
      cases e'' with
      | other x => rw [hee]; rfl
      | deserialization l r => exact absurd hee h2
      | deserializationOf l r => exact absurd hee h2
      | unpacking d => cases ht <;> cases hee
      | templateNotFound c => cases ht <;> cases hee
  | onlyHeader ho => exact deserializeE_onlyHeader ho
  | noCount x t hx ht hp hs =>
    rw [parsed hx ht hp]
    have hw := hc.templates _ _ t ht
    have hbody : bodyOf x t = (x.packet ++ ackTrailer x.flags x.acks).drop (6 + freqBytes t.freq + x.off.toNat) := by
      unfold bodyOf; rw [numPrefix_length]
    rw [hbody] at hs
    unfold runDecodeE
    rw [decodeDataE_framed hx env.rt t]
    have hf := decodeBlocks_forget env.rt (x.packet ++ ackTrailer x.flags x.acks) t.blocks (6 + freqBytes t.freq + x.off.toNat) []
    rw [decodeBlocks_noCount hw hs] at hf
    cases hd : decodeBlocksE env.rt (x.packet ++ ackTrailer x.flags x.acks) t.blocks (6 + freqBytes t.freq + x.off.toNat) [] with
    | ok r => rw [hd] at hf; cases hf
    | error s =>
      cases s with
      | retNone => rw [hd] at hf; cases hf
      | exc e' =>
        rw [decodeBlocksE_exc hw hd]
        rfl
  | empty x t raw post bss hx ht hp hd hb hne hall =>
    rw [parsed hx ht hp]
    have hw := hc.templates _ _ t ht
    have hbody : bodyOf x t = (x.packet ++ ackTrailer x.flags x.acks).drop (6 + freqBytes t.freq + x.off.toNat) := by
      unfold bodyOf; rw [numPrefix_length]
    rw [hbody] at hd
    unfold runDecodeE
    rw [decodeDataE_framed hx env.rt t]
    have hf := decodeBlocks_forget env.rt (x.packet ++ ackTrailer x.flags x.acks) t.blocks (6 + freqBytes t.freq + x.off.toNat) []
    rw [decodeBlocks_at hw hd hb] at hf
    rw [forgetS_is_ok hf, ok_bind, if_pos ⟨flatten_empty.mpr hall, List.length_pos_iff.mpr hne⟩]
    rfl

/-- **C92** (one complaint). A datagram deserves at most one exception. -/
theorem C92_unique (env : DeserEnv) (hc : Configured env) (dg : Bytes) (e e' : DeserExc) (h : Complaint env dg e) (h' : Complaint env dg e') : e = e' := by
  rw [← C92_complaint env hc {}] at h h'
  rw [h] at h'
  exact Except.error.inj h'

/-- **C92** (texts). The texts a user sees, for all datagrams: an exception with a text says either that the packet is too short or that it is empty. -/
theorem C92_text (env : DeserEnv) (hc : Configured env) (st : DeserState) (dg : Bytes) (e : DeserExc) (s : String)
    (h : (deserializeE env st dg).1 = .error e) (hs : e.text = some s) :
    (s = "Error deserializing 'packet length' due to reason: 'template mismatch'" ∧ OnlyHeader dg) ∨
    (s = "Error deserializing 'message' due to reason: 'message is empty'" ∧ ∃ x, Framed dg x) := by
  cases (C92_complaint env hc st dg e).mp h with
  | truncated e ht => cases hs
  | onlyHeader ho => cases hs; exact .inl ⟨rfl, ho⟩
  | noCount => cases hs
  | empty x t raw post bss hx => cases hs; exact .inr ⟨rfl, x, hx⟩

/-! ## Non-vacuity -/

instance {α : Type} [DecidableEq α] : DecidableEq (Except DeserExc α)
  | .ok a, .ok b => if h : a = b then .isTrue (by rw [h]) else .isFalse (fun h' => h (by cases h'; rfl))
  | .error a, .error b => if h : a = b then .isTrue (by rw [h]) else .isFalse (fun h' => h (by cases h'; rfl))
  | .ok _, .error _ => .isFalse (fun h => by cases h)
  | .error _, .ok _ => .isFalse (fun h => by cases h)

/-- A template whose only block is a Variable one. -/
def listTemplate : Template :=
  { name := "List", freq := .high, msgNum := 7, msgNumHex := [7], blocks := [{ name := "Items", blockType := .variable, vars := [⟨"N", .u8, 1⟩] }] }
def listDeser : DeserEnv := ⟨demoRt, ⟨[("List", listTemplate)], [((.high, 7), listTemplate)]⟩, [], some ["List"], true⟩

/-- Each complaint occurs. -/
example : (deserializeE demoDeser {} (readDg.take 16)).1 = .error (.deserializationOf "Demo" (.unpacking [])) ∧
    (deserializeE demoDeser {} (readDg.take 6)).1 = .error (.deserialization "packet length" "template mismatch") ∧
    (deserializeE demoDeser {} (readDg.take 8)).1 = .error (.other .indexError) ∧
    (deserializeE demoDeser {} (readDg.take 9)).1 = .error (.other .structError) ∧
    (deserializeE listDeser {} [0, 0, 0, 0, 1, 0, 7, 0]).1 = .error (.deserialization "message" "message is empty") ∧
    (deserializeE listDeser {} [0, 0, 0, 0, 1, 0, 7]).1 = .error (.deserializationOf "List" (.unpacking [])) := by
  decide +kernel

/-- So these datagrams deserve them. -/
example : Complaint demoDeser (readDg.take 16) (.deserializationOf "Demo" (.unpacking [])) ∧
    Complaint demoDeser (readDg.take 6) (.deserialization "packet length" "template mismatch") :=
  ⟨(C92_complaint demoDeser demo_configured {} _ _).mp (by decide +kernel), (C92_complaint demoDeser demo_configured {} _ _).mp (by decide +kernel)⟩

end Pyogp
