import Verif.Proofs.Reading
import Verif.Props.Deserialize

/-! # C88: what a receiver makes of a datagram -/

namespace Pyogp
open Spec

theorem framed_parts {dg : Bytes} {x : Frame} (h : Framed dg x) :
    ∃ buf, stripAcks dg = .ok (buf, ackTrailer x.flags x.acks) ∧ expandPacket buf = .ok x.packet ∧ 6 < x.packet.length ∧ buf[5]? = some x.off ∧
      buf[0]? = some x.flags ∧ dg = buf ++ ackTrailer x.flags x.acks ∧
      ∀ dict : TemplateDict, decodeHeader dict (slice x.packet 6 12) = .ok (dict.getTemplateByPair x.freq x.num) := by
  obtain ⟨buf, hd, h5, hex⟩ := h.packet
  have hb : ∃ mid, buf = x.flags :: mid := by
    cases buf with
    | nil => cases h5
    | cons a mid =>
      have := h.flags
      rw [hd] at this
      simp only [List.cons_append, List.head?_cons, Option.some.injEq] at this
      exact ⟨mid, by rw [this]⟩
  obtain ⟨mid, rfl⟩ := hb
  obtain ⟨r, hr⟩ := h.number.2
  have hp := numPrefix_pos x.freq x.num
  have hlen : 6 < x.packet.length := by
    have := congrArg List.length hr
    simp only [List.length_append, List.length_drop] at this
    omega
  refine ⟨_, by rw [hd]; exact stripAcks_ok x.flags mid x.acks h.acks.count, expandPacket_of rfl (fun _ => h5) hex, hlen, h5, rfl, hd, ?_⟩
  intro dict
  have hs : slice x.packet 6 12 = numPrefix x.freq x.num ++ r.take (6 - (numPrefix x.freq x.num).length) := by
    have : (numPrefix x.freq x.num).length ≤ 6 := by rw [numPrefix_length]; cases x.freq <;> decide
    rw [slice, ← hr, List.take_append, List.take_of_length_le (by omega)]
  rw [hs, decodeHeader_prefix dict h.number.1]

/-- The steps before the blocks of a framed datagram are read. -/
theorem framed_steps {dg : Bytes} {x : Frame} (h : Framed dg x) (rt : Runtime) (t : Template) :
    index (x.packet ++ ackTrailer x.flags x.acks) 0 = .ok x.flags ∧
    unpackInt rt (x.packet ++ ackTrailer x.flags x.acks) .u32 1 (some .big) = .ok (x.pid : Int) ∧
    decodeAckPart rt (x.packet ++ ackTrailer x.flags x.acks) { name := t.name, sendFlags := x.flags.toNat, packetId := x.pid } =
      .ok { name := t.name, sendFlags := x.flags.toNat, packetId := x.pid, acks := x.acks, numAcks := x.acks.length } ∧
    unpackInt rt (x.packet ++ ackTrailer x.flags x.acks) .u8 5 = .ok (x.off.toNat : Int) := by
  obtain ⟨buf, _, he, hlen, h5, h0, hd, _⟩ := framed_parts h
  obtain ⟨hbl, hget⟩ := expandPacket_head he hlen
  have hp0 : (x.packet ++ ackTrailer x.flags x.acks)[0]? = some x.flags := by
    rw [List.getElem?_append_left (by omega), hget 0 (by omega), h0]
  have hp5 : (x.packet ++ ackTrailer x.flags x.acks)[5]? = some x.off := by
    rw [List.getElem?_append_left (by omega), hget 5 (by omega), h5]
  obtain ⟨p, hp, hsl, hu⟩ := unpackId rt (d := x.packet ++ ackTrailer x.flags x.acks) (by simp; omega)
  have hpid : p = x.pid := by
    apply idBytes_inj hp h.pid.2
    rw [← hsl, ← h.pid.1]
    apply slice_eq_of_get
    intro i hi
    rw [List.getElem?_append_left (by omega), hget i (by omega), hd, List.getElem?_append_left (by omega)]
  subst hpid
  have hoff : unpackInt rt (x.packet ++ ackTrailer x.flags x.acks) .u8 5 = .ok (x.off.toNat : Int) := by
    have hd5 : (x.packet ++ ackTrailer x.flags x.acks).drop 5 = [x.off] ++ (x.packet ++ ackTrailer x.flags x.acks).drop 6 := by
      rw [List.drop_eq_getElem_cons (by simp; omega)]
      have := List.getElem?_eq_some_iff.mp hp5
      obtain ⟨_, e⟩ := this
      rw [e]; rfl
    have := unpackInt_at (rt := rt) (ty := .u8) (by rfl) (by rfl) hd5 rfl (structUnpack_unsigned_ok (d := .big) (f := .B) rfl rfl)
    rw [this]
    simp [Endian.order, leVal]
  have hack := decodeAckPart_ok rt x.packet x.flags x.acks h.acks.count h.acks.ids h.acks.flag
    { name := t.name, sendFlags := x.flags.toNat, packetId := x.pid } rfl rfl rfl
  have hi : index (x.packet ++ ackTrailer x.flags x.acks) 0 = .ok x.flags := by unfold index; rw [hp0]
  exact ⟨hi, hu, hack, hoff⟩

/-- Reading the body of a framed datagram. -/
theorem decodeData_framed {dg : Bytes} {x : Frame} (h : Framed dg x) (rt : Runtime) (t : Template) :
    decodeData rt (some t) (x.packet ++ ackTrailer x.flags x.acks) = (do
      let r ← decodeBlocks rt (x.packet ++ ackTrailer x.flags x.acks) t.blocks (6 + freqBytes t.freq + x.off.toNat) []
      if r.1.length = 0 ∧ 0 < t.blocks.length then .error (.exc .messageDeserialization)
      else .ok { name := t.name, sendFlags := x.flags.toNat, packetId := x.pid, acks := x.acks, numAcks := x.acks.length,
                 reliable := decide (x.flags.toNat &&& 0x40 ≠ 0), blocks := r.1 }) := by
  obtain ⟨hi, hu, hack, hoff⟩ := framed_steps h rt t
  unfold decodeData
  simp only [ok_bind, hi, hu, liftPy, Int.toNat_natCast, hack, hoff]
  congr 1
  funext r
  split
  · rfl
  · rw [show flagReliable = 0x40 from rfl]
    by_cases hr : x.flags.toNat &&& 0x40 = 0
    · simp [hr]
    · simp [hr]

theorem parsed_iff {env : DeserEnv} (hc : Configured env) {f n t} (ht : env.dict.getTemplateByPair f n = some t) (k : Py (Option Message)) :
    (do
      let allowed ← validateUdpMsg env.xml t.name
      if !allowed then .ok none
      else
        let want ← wantsParse env t.name
        if want then k else .ok none) = open Classical in if Parsed env t.name then k else .ok none := by
  obtain ⟨names, hn⟩ := hc.handler
  have hx := hc.xml f n t ht
  by_cases hp : Parsed env t.name
  · rw [if_pos hp]
    obtain ⟨h1, h2⟩ := hp
    have hv : validateUdpMsg env.xml t.name = .ok true := by
      unfold validateUdpMsg
      rcases h1 with h | h <;> rw [h] <;> simp
    rw [hv, ok_bind]
    simp only [Bool.not_true, Bool.false_eq_true, if_false, wantsParse_of h2, ok_bind, if_true]
  · rw [if_neg hp]
    cases hg : env.xml.get? t.name with
    | none =>
      have hv : validateUdpMsg env.xml t.name = .ok true := by unfold validateUdpMsg; rw [hg]
      have hw : wantsParse env t.name = .ok false := by
        unfold wantsParse
        rw [hn]
        simp only [Except.ok.injEq, Bool.or_eq_false_iff]
        refine ⟨?_, ?_⟩
        · cases hc' : names.contains t.name with
          | false => rfl
          | true => exact absurd ⟨.inl hg, names, hn, .inl (by simpa using hc')⟩ hp
        · cases hd : env.deferred with
          | true => rfl
          | false => exact absurd ⟨.inl hg, names, hn, .inr hd⟩ hp
      rw [hv, ok_bind]
      simp only [Bool.not_true, Bool.false_eq_true, if_false, hw, ok_bind]
    | some o =>
      cases o with
      | none => exact absurd hg hx
      | some fl =>
        by_cases hfl : fl = "template"
        · subst hfl
          have hv : validateUdpMsg env.xml t.name = .ok true := by unfold validateUdpMsg; rw [hg]; simp
          have hw : wantsParse env t.name = .ok false := by
            unfold wantsParse
            rw [hn]
            simp only [Except.ok.injEq, Bool.or_eq_false_iff]
            refine ⟨?_, ?_⟩
            · cases hc' : names.contains t.name with
              | false => rfl
              | true => exact absurd ⟨.inr hg, names, hn, .inl (by simpa using hc')⟩ hp
            · cases hd : env.deferred with
              | true => rfl
              | false => exact absurd ⟨.inr hg, names, hn, .inr hd⟩ hp
          rw [hv, ok_bind]
          simp only [Bool.not_true, Bool.false_eq_true, if_false, hw, ok_bind]
        · have hv : validateUdpMsg env.xml t.name = .ok false := by unfold validateUdpMsg; rw [hg]; simp [hfl]
          rw [hv, ok_bind]; rfl

theorem deserialize_framed {env : DeserEnv} {st : DeserState} {dg : Bytes} {x : Frame} (h : Framed dg x) :
    (deserialize env st dg).1 = (match env.dict.getTemplateByPair x.freq x.num with
      | none => .ok none
      | some t => (do
        let allowed ← validateUdpMsg env.xml t.name
        if !allowed then .ok none
        else
          let want ← wantsParse env t.name
          if want then runDecode env.rt (some t) (x.packet ++ ackTrailer x.flags x.acks) else .ok none)) := by
  obtain ⟨buf, hs, he, hlen, _, _, _, hdh⟩ := framed_parts h
  have hl : ¬ x.packet.length ≤ 6 := by omega
  unfold deserialize
  simp only [hs, he, deserializeRest, decodeTemplate, hl, if_false, hdh]
  cases env.dict.getTemplateByPair x.freq x.num with
  | none => rfl
  | some t => rfl

theorem flatten_empty {bss : List (List BlockData)} : (bss.flatten.foldl addBlock []).length = 0 ↔ ∀ bs ∈ bss, bs = [] := by
  rw [List.length_eq_zero_iff, ← List.flatten_eq_nil_iff]
  constructor
  · intro h
    apply Classical.byContradiction
    intro hne
    exact foldl_addBlock_ne_nil (.inl hne) h
  · intro h; rw [h]; rfl

theorem runDecode_framed {dg : Bytes} {x : Frame} (h : Framed dg x) (rt : Runtime) (t : Template) (hw : ∀ tb ∈ t.blocks, ∀ v ∈ tb.vars, WFVar v) :
    (Short rt t.blocks (bodyOf x t) → runDecode rt (some t) (x.packet ++ ackTrailer x.flags x.acks) = .ok none) ∧
    (NoCount rt t.blocks (bodyOf x t) → runDecode rt (some t) (x.packet ++ ackTrailer x.flags x.acks) = .error .messageDeserialization) ∧
    ∀ raw post bss, bodyOf x t = raw ++ post → BlocksBytes rt t.blocks raw bss →
      (t.blocks ≠ [] → (∀ bs ∈ bss, bs = []) → runDecode rt (some t) (x.packet ++ ackTrailer x.flags x.acks) = .error .messageDeserialization) ∧
      ((t.blocks = [] ∨ ∃ bs ∈ bss, bs ≠ []) → runDecode rt (some t) (x.packet ++ ackTrailer x.flags x.acks) = .ok (some (messageOf x t bss))) := by
  have hbody : bodyOf x t = (x.packet ++ ackTrailer x.flags x.acks).drop (6 + freqBytes t.freq + x.off.toNat) := by
    unfold bodyOf; rw [numPrefix_length]
  rw [hbody]
  unfold runDecode
  rw [decodeData_framed h rt t]
  generalize (x.packet ++ ackTrailer x.flags x.acks) = data
  generalize 6 + freqBytes t.freq + x.off.toNat = pos
  refine ⟨?_, ?_, ?_⟩
  · intro hs; rw [decodeBlocks_short hw hs]; rfl
  · intro hs; rw [decodeBlocks_noCount hw hs]; rfl
  · intro raw post bss hd hb
    rw [decodeBlocks_at hw hd hb]
    constructor
    · intro hne hall
      simp only [ok_bind]
      rw [if_pos ⟨flatten_empty.mpr hall, List.length_pos_iff.mpr hne⟩]
    · intro hne
      simp only [ok_bind]
      rw [if_neg]
      · rfl
      · rintro ⟨h1, h2⟩
        rcases hne with hne | ⟨bs, hm, hn⟩
        · rw [hne] at h2; cases h2
        · exact hn (flatten_empty.mp h1 bs hm)

theorem result_sound {env : DeserEnv} (hc : Configured env) (st : DeserState) {dg : Bytes} {x : Frame} (h : Framed dg x) {r : Py (Option Message)}
    (hr : Result env x r) : (deserialize env st dg).1 = r := by
  rw [deserialize_framed h]
  have key : ∀ t, env.dict.getTemplateByPair x.freq x.num = some t → Parsed env t.name →
      runDecode env.rt (some t) (x.packet ++ ackTrailer x.flags x.acks) = r →
      (match env.dict.getTemplateByPair x.freq x.num with
      | none => .ok none
      | some t => do
        let allowed ← validateUdpMsg env.xml t.name
        if !allowed then .ok none
        else
          let want ← wantsParse env t.name
          if want then runDecode env.rt (some t) (x.packet ++ ackTrailer x.flags x.acks) else .ok none) = r := by
    intro t ht hp hr
    rw [ht]
    simp only
    rw [parsed_iff hc ht, if_pos hp, hr]
  cases hr with
  | unknown hn => rw [hn]
  | skipped t ht hp =>
    rw [ht]
    simp only
    rw [parsed_iff hc ht, if_neg hp]
  | short t ht hp hs => exact key t ht hp ((runDecode_framed h env.rt t (hc.templates _ _ t ht)).1 hs)
  | noCount t ht hp hs => exact key t ht hp ((runDecode_framed h env.rt t (hc.templates _ _ t ht)).2.1 hs)
  | empty t raw post bss ht hp hd hb hne hall => exact key t ht hp (((runDecode_framed h env.rt t (hc.templates _ _ t ht)).2.2 raw post bss hd hb).1 hne hall)
  | message t raw post bss ht hp hd hb hne => exact key t ht hp (((runDecode_framed h env.rt t (hc.templates _ _ t ht)).2.2 raw post bss hd hb).2 hne)

theorem result_total {env : DeserEnv} (hc : Configured env) (x : Frame) : ∃ r, Result env x r := by
  cases ht : env.dict.getTemplateByPair x.freq x.num with
  | none => exact ⟨_, .unknown ht⟩
  | some t =>
    by_cases hp : Parsed env t.name
    · rcases blocks_cases env.rt (hc.templates _ _ t ht) (bodyOf x t) with ⟨raw, post, bss, hd, hb⟩ | hs | hs
      · by_cases hne : t.blocks = [] ∨ ∃ bs ∈ bss, bs ≠ []
        · exact ⟨_, .message t raw post bss ht hp hd hb hne⟩
        · refine ⟨_, .empty t raw post bss ht hp hd hb (fun h => hne (.inl h)) ?_⟩
          intro bs hm
          exact Classical.byContradiction fun h => hne (.inr ⟨bs, hm, h⟩)
      · exact ⟨_, .short t ht hp hs⟩
      · exact ⟨_, .noCount t ht hp hs⟩
    · exact ⟨_, .skipped t ht hp⟩

/-- **C88** (outcome). What `deserialize` does with a datagram that has a complete message number is exactly what the specification says. -/
theorem C88_outcome (env : DeserEnv) (hc : Configured env) (st : DeserState) (dg : Bytes) (x : Frame) (h : Framed dg x) (r : Py (Option Message)) :
    (deserialize env st dg).1 = r ↔ Result env x r := by
  constructor
  · intro hr
    obtain ⟨r', hr'⟩ := result_total hc x
    rw [result_sound hc st h hr'] at hr
    exact hr ▸ hr'
  · exact result_sound hc st h

/-- The acks at the end of a datagram. -/
theorem trailer_of {flags : UInt8} {acks : Bytes} (h : if flags.toNat &&& 0x10 ≠ 0 then ∃ A n, acks = A ++ [n] ∧ A.length = 4 * n.toNat else acks = []) :
    ∃ ids, acks = ackTrailer flags ids ∧ AcksOk flags ids := by
  by_cases hf : flags.toNat &&& 0x10 = 0
  · rw [if_neg (by simp [hf])] at h
    subst h
    exact ⟨[], by simp [ackTrailer, hf], ⟨by simp, by simp, fun _ => rfl⟩⟩
  · rw [if_pos hf] at h
    obtain ⟨A, n, rfl, hA⟩ := h
    have : ∀ (k : Nat) (A : Bytes), A.length = 4 * k → ∃ ids : List Nat, ids.length = k ∧ A = ids.flatMap ackBytes ∧ ∀ a ∈ ids, a < 2 ^ 32 := by
      intro k
      induction k with
      | zero => intro A h; exact ⟨[], rfl, by simpa using h, by simp⟩
      | succ k ih =>
        intro A h
        have h4 : (A.take 4).length = 4 := by simp; omega
        obtain ⟨ids, h1, h2, h3⟩ := ih (A.drop 4) (by simp; omega)
        refine ⟨leVal (A.take 4) :: ids, by simp [h1], ?_, ?_⟩
        · rw [List.flatMap_cons, ackBytes_eq, leBytes_leVal_of_length h4, ← h2, List.take_append_drop]
        · intro a ha
          rcases List.mem_cons.mp ha with rfl | ha
          · have := leVal_lt (A.take 4)
            rw [h4] at this; exact this
          · exact h3 a ha
    obtain ⟨ids, h1, rfl, h3⟩ := this n.toNat A hA
    have hn := n.toNat_lt
    refine ⟨ids, ?_, ⟨by omega, h3, fun h => absurd h hf⟩⟩
    unfold ackTrailer
    rw [if_pos hf, h1]
    simp

/-- **C88** (every datagram). Every datagram has a complete message number, is truncated (C16_truncated says what then happens), or is not longer than a
header. -/
theorem C88_frames (dg : Bytes) : (∃ x, Framed dg x) ∨ (∃ e, Truncated dg e) ∨ OnlyHeader dg := by
  cases hs : stripAcks dg with
  | error e =>
    obtain ⟨h, _⟩ := stripAcks_error_iff.mp hs
    subst h
    exact .inr (.inl ⟨_, .empty⟩)
  | ok p =>
    obtain ⟨buf, acks⟩ := p
    obtain ⟨flags, hb⟩ := stripAcks_before hs
    by_cases hne : buf = []
    · subst hne; exact .inr (.inl ⟨_, .onlyAcks hb⟩)
    · have h0 := before_head hb hne
      cases he : expandPacket buf with
      | error e =>
        right; left
        refine ⟨_, .zeroCodedHeader hb ?_ ?_⟩
        · intro hz
          unfold expandPacket index at he
          rw [show flagZeroCode = 0x80 from rfl] at he
          simp [h0, ok_bind, hz] at he
        · rcases Nat.lt_or_ge buf.length 6 with h | h
          · exact h
          · exfalso
            unfold expandPacket index at he
            simp only [h0, ok_bind, List.getElem?_eq_getElem (show 5 < buf.length by omega)] at he
            split at he <;> cases he
      | ok packet =>
        obtain ⟨off, h5, hex⟩ := expanded_of h0 he
        rcases Nat.lt_or_ge 6 packet.length with hlen | hlen
        · obtain ⟨hbl, hget⟩ := expandPacket_head he hlen
          cases hh : decodeHeader { byName := [], byPair := [] } (slice packet 6 12) with
          | error e =>
            right; left
            have e12 : packet = packet.take 6 ++ packet.drop 6 := (List.take_append_drop 6 packet).symm
            have hl6 : (packet.take 6).length = 6 := by simp; omega
            have hfull : (slice packet 6 12).length < 6 → packet.drop 6 = slice packet 6 12 := by
              intro h
              rw [slice] at h ⊢
              rw [List.take_of_length_le]
              simp only [List.length_take] at h
              omega
            rcases decodeHeader_error_iff.mp hh with ⟨rfl, h | h | h⟩ | ⟨rfl, y, h⟩
            · have := hfull (by rw [h]; simp)
              rw [h] at this
              have := congrArg List.length this
              simp at this; omega
            · exact ⟨_, .number hb hne h5 hex (by rw [← h, ← hfull (by rw [h]; simp)]; exact e12) hl6 (.inl rfl)⟩
            · exact ⟨_, .number hb hne h5 hex (by rw [← h, ← hfull (by rw [h]; simp)]; exact e12) hl6 (.inr rfl)⟩
            · exact ⟨_, .longNumber hb hne h5 hex (by rw [← h, ← hfull (by rw [h]; simp)]; exact e12) hl6⟩
          | ok t? =>
            left
            obtain ⟨f, n, hin, hpre, _⟩ := decodeHeader_ok hh
            obtain ⟨fl, g0, gb0, hcat, hack⟩ := stripAcks_inv hs hne
            have hfl : fl = flags := by rw [h0] at gb0; cases gb0; rfl
            subst hfl
            obtain ⟨ids, hids, hok⟩ := trailer_of hack
            obtain ⟨p, hp, hsl, _⟩ := unpackId ⟨.v27, fun _ _ _ => 0⟩ (d := dg) (by rw [hcat, List.length_append]; omega)
            have h5' : ∃ o, buf[5]? = some o ∧ Expanded fl o.toNat buf packet := by
              by_cases hz : fl.toNat &&& 0x80 = 0
              · refine ⟨buf[5]'(by omega), List.getElem?_eq_getElem _, ?_⟩
                unfold Expanded at hex ⊢
                rw [if_neg (by simp [hz])] at hex ⊢
                exact hex
              · exact ⟨off, h5 hz, hex⟩
            obtain ⟨o, ho, hexo⟩ := h5'
            exact ⟨⟨fl, o, p, ids, packet, f, n⟩, by rw [List.head?_eq_getElem?]; exact g0, hok, ⟨hsl, hp⟩, ⟨buf, by rw [hcat, hids], ho, hexo⟩,
              hin, hpre.trans (List.take_prefix _ _)⟩
        · exact .inr (.inr ⟨flags, off, buf, packet, hb, hne, h5, hex, hlen⟩)

/-- **C88** (header only). A datagram not longer than a header raises `MessageDeserializationError`. -/
theorem C88_only_header (env : DeserEnv) (st : DeserState) (dg : Bytes) (h : OnlyHeader dg) :
    (deserialize env st dg).1 = .error .messageDeserialization := by
  obtain ⟨flags, off, buf, packet, hb, hne, h5, hex, hl⟩ := h
  obtain ⟨acks, hs⟩ := before_stripAcks hb
  unfold deserialize
  simp only [hs, expandPacket_of (before_head hb hne) h5 hex, deserializeRest, decodeTemplate, hl, if_true]

/-- **C88** (unique). The parts are determined by the datagram. -/
theorem C88_frame_unique (dg : Bytes) (x y : Frame) (hx : Framed dg x) (hy : Framed dg y) : x = y := by
  obtain ⟨bx, hsx, hex, _, h5x, _, _, hdx⟩ := framed_parts hx
  obtain ⟨by', hsy, hey, _, h5y, _, _, hdy⟩ := framed_parts hy
  have hf : x.flags = y.flags := by
    have := hx.flags
    rw [hy.flags] at this
    exact (Option.some.inj this).symm
  rw [hsx] at hsy
  simp only [Except.ok.injEq, Prod.mk.injEq] at hsy
  obtain ⟨rfl, hacks⟩ := hsy
  rw [hex] at hey
  have hpk : x.packet = y.packet := Except.ok.inj hey
  have hoff : x.off = y.off := by rw [h5x] at h5y; exact Option.some.inj h5y
  have hpid : x.pid = y.pid := idBytes_inj hx.pid.2 hy.pid.2 (by rw [← hx.pid.1, hy.pid.1])
  have hnum : x.freq = y.freq ∧ x.num = y.num := by
    obtain ⟨r, hr⟩ := hx.number.2
    obtain ⟨r', hr'⟩ := hy.number.2
    rw [hpk, ← hr'] at hr
    exact C11_prefixes_distinct _ _ _ _ hx.number.1 hy.number.1 r r' hr
  have hids : x.acks = y.acks := by
    have ha := decodeAckPart_ok ⟨.v27, fun _ _ _ => 0⟩ [] x.flags x.acks hx.acks.count hx.acks.ids hx.acks.flag
      { name := "", sendFlags := x.flags.toNat } rfl rfl rfl
    have hb := decodeAckPart_ok ⟨.v27, fun _ _ _ => 0⟩ [] y.flags y.acks hy.acks.count hy.acks.ids hy.acks.flag
      { name := "", sendFlags := x.flags.toNat } (by rw [hf]) rfl rfl
    rw [hacks, hb] at ha
    simp only [Except.ok.injEq, Message.mk.injEq] at ha
    simp_all
  obtain ⟨_, _, _, _, _, _, _⟩ := x
  obtain ⟨_, _, _, _, _, _, _⟩ := y
  simp_all

/-! Concrete cases: the datagram of `Demo` with an item, and what is made of it when it is cut off. -/

def readDg : Bytes := [0x40, 0, 0, 0, 9, 0, 0xff, 0xff, 1, 44, 77, 0, 0, 0, 1, 104, 1, 5, 0]

theorem demo_framed (k : Nat) (hk : 10 ≤ k) : Framed (readDg.take k) ⟨0x40, 0, 9, [], readDg.take k, .low, 300⟩ := by
  obtain ⟨j, rfl⟩ := Nat.exists_eq_add_of_le hk
  have e : readDg.take (10 + j) = [0x40, 0, 0, 0, 9, 0, 0xff, 0xff, 1, 44] ++ ([77, 0, 0, 0, 1, 104, 1, 5, 0] : Bytes).take j := by
    rw [readDg, Nat.add_comm]; rfl
  rw [e]
  have hz : ¬ ((0x40 : UInt8).toNat &&& 0x80 ≠ 0) := by decide
  have ha : ¬ ((0x40 : UInt8).toNat &&& 0x10 ≠ 0) := by decide
  refine ⟨rfl, ⟨by simp, by simp, fun _ => rfl⟩, ⟨(show [0, 0, 0, 9] = idBytes 9 by decide), by simp⟩,
    ⟨_, (by simp only [ackTrailer]; rw [if_neg ha, List.append_nil]), rfl, ?_⟩, by simp [InClass], ⟨([77, 0, 0, 0, 1, 104, 1, 5, 0] : Bytes).take j, ?_⟩⟩
  · simp only [Expanded]; rw [if_neg hz]; trivial
  · have e2 : numPrefix .low 300 = [0xff, 0xff, 1, 44] := by decide
    simp only [e2]; rfl

/-- The whole datagram is a message; cut off within `Id`, `Name` or an item it is ignored; cut off before the number of items it raises. -/
example : okSome (deserialize demoDeser {} readDg).1 (fun m => decide ((m.getBlock "Items").map List.length = .ok 1)) = true ∧
    (deserialize demoDeser {} (readDg.take 12)).1 = .ok none ∧ (deserialize demoDeser {} (readDg.take 15)).1 = .ok none ∧
    (deserialize demoDeser {} (readDg.take 18)).1 = .ok none ∧ (deserialize demoDeser {} (readDg.take 16)).1 = .error .messageDeserialization := by
  decide +kernel

/-- So the specification says the same of them. -/
example : Result demoDeser ⟨0x40, 0, 9, [], readDg.take 16, .low, 300⟩ (.error .messageDeserialization) :=
  (C88_outcome demoDeser demo_configured {} _ _ (demo_framed 16 (by decide)) _).mp (by decide +kernel)

end Pyogp
