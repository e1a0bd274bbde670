import Verif.Props.Serialize
import Verif.Proofs.HeaderTotal
import Verif.Proofs.HeaderId

/-! # C16–C19, C58: receiving arbitrary datagrams -/

namespace Pyogp
open Spec

/-- A deserializer with a handler object, a message.xml in which every entry of a known message has a flavor, and well-formed templates.
(`default_configured` in `Props/Templates.lean`: the embedded data files are such a configuration.) -/
structure Configured (env : DeserEnv) : Prop where
  handler : ∃ names, env.handled? = some names
  xml : ∀ f n t, env.dict.getTemplateByPair f n = some t → env.xml.get? t.name ≠ some none
  templates : ∀ f n t, env.dict.getTemplateByPair f n = some t → ∀ tb ∈ t.blocks, ∀ v ∈ tb.vars, WFVar v

theorem validate_total {x : DotXml} {n : String} (h : x.get? n ≠ some none) : ∃ b, validateUdpMsg x n = .ok b := by
  unfold validateUdpMsg
  split
  · exact ⟨true, rfl⟩
  · rename_i hn; exact absurd hn h
  · split
    · exact ⟨true, rfl⟩
    · exact ⟨false, rfl⟩

theorem deserializeRest_outcomes {env : DeserEnv} (hc : Configured env) (st : DeserState) (buf acks : Bytes) :
    (∃ r, (deserializeRest env st buf acks).1 = .ok r) ∨ (deserializeRest env st buf acks).1 = .error .messageDeserialization ∨
      ∃ e, decodeHeader env.dict (slice buf 6 12) = .error e ∧ (deserializeRest env st buf acks).1 = .error e := by
  unfold deserializeRest decodeTemplate
  split
  · rename_i e st' hdt
    split at hdt
    · cases hdt; exact .inr (.inl rfl)
    · split at hdt
      · rename_i e' he
        cases hdt
        exact .inr (.inr ⟨e, he, rfl⟩)
      · cases hdt
  · exact .inl ⟨_, rfl⟩
  · rename_i st' hdt
    split at hdt
    · cases hdt
    · rename_i hlen
      split at hdt
      · cases hdt
      · rename_i t? hdh
        simp only [Prod.mk.injEq, Except.ok.injEq] at hdt
        obtain ⟨hsome, rfl⟩ := hdt
        cases t? with
        | none => cases hsome
        | some t =>
          have hpair : ∃ f n, env.dict.getTemplateByPair f n = some t := by
            simp only [decodeHeader, bind_ok, Except.ok.injEq] at hdh
            obtain ⟨f, _, n, _, hp⟩ := hdh
            exact ⟨_, _, hp⟩
          obtain ⟨fq, nq, hpair⟩ := hpair
          obtain ⟨b, hb⟩ := validate_total (hc.xml _ _ _ hpair)
          obtain ⟨names, hn⟩ := hc.handler
          simp only [currentName, ok_bind, hb]
          cases b
          · exact .inl ⟨_, rfl⟩
          · simp only [Bool.not_true, Bool.false_eq_true, if_false, wantsParse, hn, ok_bind]
            split
            · have hwf : ∀ tb ∈ t.blocks, ∀ v ∈ tb.vars, WFVar v := hc.templates _ _ _ hpair
              have hne : buf ++ acks ≠ [] := by
                intro h
                have h1 := congrArg List.length h
                rw [List.length_append] at h1
                simp only [List.length_nil] at h1
                omega
              unfold runDecode
              cases hdd : decodeData env.rt (some t) (buf ++ acks) with
              | ok m => exact .inl ⟨_, rfl⟩
              | error s =>
                rcases decodeData_stop hwf hne hdd with rfl | rfl | rfl
                · exact .inl ⟨_, rfl⟩
                · exact .inr (.inl rfl)
                · exact .inr (.inl rfl)
            · exact .inl ⟨_, rfl⟩

/-- **C16, outcomes.** For every datagram, after any history, the outcome is a message, `None`, `MessageDeserializationError`,
`IndexError` or `struct.error`; no other exception escapes.  (`C16_truncated` says exactly when the last two do.) -/
theorem C16_outcomes (env : DeserEnv) (hc : Configured env) (st : DeserState) (dg : Bytes) :
    (∃ r, (deserialize env st dg).1 = .ok r) ∨ (deserialize env st dg).1 = .error .messageDeserialization ∨
      (deserialize env st dg).1 = .error .indexError ∨ (deserialize env st dg).1 = .error .structError := by
  unfold deserialize
  cases hs : stripAcks dg with
  | error e =>
    right; right; left
    have : e = .indexError := by
      simp only [stripAcks, bind_error] at hs
      rcases hs with h | ⟨_, _, h⟩
      · exact (index_error h).1
      · split at h
        · simp only [bind_error] at h
          rcases h with h | ⟨_, _, h⟩
          · exact (index_error h).1
          · cases h
        · cases h
    rw [this]
  | ok p =>
    obtain ⟨buf, acks⟩ := p
    simp only
    cases he : expandPacket buf with
    | error e =>
      right; right; left
      have : e = .indexError := by
        simp only [expandPacket, bind_error] at he
        rcases he with h | ⟨_, _, h⟩
        · exact (index_error h).1
        · split at h
          · simp only [bind_error] at h
            rcases h with h | ⟨_, _, h⟩
            · exact (index_error h).1
            · cases h
          · cases h
      rw [this]
    | ok buf' =>
      simp only
      rcases deserializeRest_outcomes hc st buf' acks with h | h | ⟨e, h1, h2⟩
      · exact .inl h
      · exact .inr (.inl h)
      · rcases decodeHeader_error h1 with rfl | rfl
        · exact .inr (.inr (.inl h2))
        · exact .inr (.inr (.inr h2))

/-- **C16, sufficient length.** For every datagram with at least 5 bytes between its 6-byte header and its appended acks the outcome is
as declared: a message, `None` or `MessageDeserializationError`. -/
theorem C16_declared_outcomes (env : DeserEnv) (hc : Configured env) (st : DeserState) (dg : Bytes) (flags last : UInt8)
    (h0 : dg.head? = some flags) (hl : dg.getLast? = some last)
    (hlen : 11 + (if flags.toNat &&& 0x10 ≠ 0 then 1 + 4 * last.toNat else 0) ≤ dg.length) :
    (∃ r, (deserialize env st dg).1 = .ok r) ∨ (deserialize env st dg).1 = .error .messageDeserialization := by
  have h0' : dg[0]? = some flags := by rw [← h0, List.head?_eq_getElem?]
  have hl' : dg[dg.length - 1]? = some last := by rw [← hl, List.getLast?_eq_getElem?]
  obtain ⟨buf, acks, hs, hb0, hblen⟩ : ∃ buf acks, stripAcks dg = .ok (buf, acks) ∧ buf[0]? = some flags ∧ 11 ≤ buf.length := by
    unfold stripAcks index
    rw [show flagAck = 0x10 from rfl]
    simp only [h0', hl', ok_bind]
    split
    · rename_i hf
      rw [if_pos hf] at hlen
      refine ⟨_, _, rfl, ?_, ?_⟩
      · rw [dropLastN, List.getElem?_take_of_lt (by omega)]; exact h0'
      · simp [dropLastN]; omega
    · exact ⟨_, _, rfl, h0', by omega⟩
  obtain ⟨buf', he, hdec⟩ : ∃ buf', expandPacket buf = .ok buf' ∧ ∃ r, decodeHeader env.dict (slice buf' 6 12) = .ok r := by
    unfold expandPacket index
    simp only [hb0, ok_bind]
    split
    · have h5 : ∃ o, buf[5]? = some o := ⟨buf[5], List.getElem?_eq_getElem (by omega)⟩
      obtain ⟨o, ho⟩ := h5
      simp only [ho, ok_bind]
      refine ⟨_, rfl, ?_⟩
      have e : slice (buf.take (6 + o.toNat) ++ zeroCodeExpand (buf.drop (6 + o.toNat))) 6 12 =
          (((buf.take (6 + o.toNat)).drop 6) ++ zeroCodeExpand (buf.drop (6 + o.toNat))).take 6 := by
        rw [slice, List.drop_append_of_le_length (by simp; omega)]
      rw [e]
      apply header_expanded
      simp; omega
    · refine ⟨buf, rfl, ?_⟩
      have h4 : 4 ≤ (slice buf 6 12).length := by simp [slice]; omega
      match hS : slice buf 6 12, h4 with
      | a :: b :: c :: d :: l, _ => exact header_long a b c d l
  unfold deserialize
  simp only [hs, he]
  rcases deserializeRest_outcomes hc st buf' acks with h | h | ⟨e, h1, h2⟩
  · exact .inl h
  · exact .inr h
  · obtain ⟨r, hr⟩ := hdec
    rw [hr] at h1; cases h1

theorem decodeHeader_error_iff {dict : TemplateDict} {h : Bytes} {e : Exc} : decodeHeader dict h = .error e ↔
    (e = .indexError ∧ (h = [] ∨ h = [0xff] ∨ h = [0xff, 0xff])) ∨ (e = .structError ∧ ∃ x, h = [0xff, 0xff, x]) := by
  match h with
  | [] =>
    have : decodeHeader dict [] = .error .indexError := rfl
    rw [this, Except.error.injEq]
    exact ⟨fun h => .inl ⟨h.symm, by simp⟩, fun h => by rcases h with ⟨h, _⟩ | ⟨_, _, h⟩; exact h.symm; cases h⟩
  | [a] =>
    by_cases ha : a = 0xff
    · subst ha
      have : decodeHeader dict [0xff] = .error .indexError := rfl
      rw [this, Except.error.injEq]
      exact ⟨fun h => .inl ⟨h.symm, by simp⟩, fun h => by rcases h with ⟨h, _⟩ | ⟨_, _, h⟩; exact h.symm; cases h⟩
    · obtain ⟨r, hr⟩ := header_high (dict := dict) ha []
      rw [hr]; simp [ha]
  | [a, b] =>
    by_cases ha : a = 0xff
    · subst ha
      by_cases hb : b = 0xff
      · subst hb
        have : decodeHeader dict [0xff, 0xff] = .error .indexError := rfl
        rw [this, Except.error.injEq]
        exact ⟨fun h => .inl ⟨h.symm, by simp⟩, fun h => by rcases h with ⟨h, _⟩ | ⟨_, _, h⟩; exact h.symm; cases h⟩
      · obtain ⟨r, hr⟩ := header_medium (dict := dict) hb []
        rw [hr]; simp [hb]
    · obtain ⟨r, hr⟩ := header_high (dict := dict) ha [b]
      rw [hr]; simp [ha]
  | [a, b, c] =>
    by_cases ha : a = 0xff
    · subst ha
      by_cases hb : b = 0xff
      · subst hb
        have : decodeHeader dict [0xff, 0xff, c] = .error .structError := by
          by_cases hc : c = 0xff
          · subst hc; rfl
          · have hf : decodeFrequency [0xff, 0xff, c] = .ok .low := by simp [decodeFrequency, index, ok_bind, hc]
            simp only [decodeHeader, decodeNum, hf, ok_bind]
            rfl
        rw [this, Except.error.injEq]
        exact ⟨fun h => .inr ⟨h.symm, c, rfl⟩, fun h => by rcases h with ⟨_, h | h | h⟩ | ⟨h, _⟩; cases h; cases h; cases h; exact h.symm⟩
      · obtain ⟨r, hr⟩ := header_medium (dict := dict) hb [c]
        rw [hr]; simp [hb]
    · obtain ⟨r, hr⟩ := header_high (dict := dict) ha [b, c]
      rw [hr]; simp [ha]
  | a :: b :: c :: d :: l =>
    obtain ⟨r, hr⟩ := header_long (dict := dict) a b c d l
    rw [hr]; simp

theorem stripAcks_error_iff {dg : Bytes} {e : Exc} : stripAcks dg = .error e ↔ dg = [] ∧ e = .indexError := by
  cases dg with
  | nil => 
    have : stripAcks [] = .error .indexError := rfl
    rw [this, Except.error.injEq]
    exact ⟨fun h => ⟨rfl, h.symm⟩, fun h => h.2.symm⟩
  | cons a l =>
    have h1 : index (a :: l) 0 = .ok a := rfl
    have h2 : ∃ x, index (a :: l) ((a :: l).length - 1) = .ok x := by
      unfold index
      rw [List.getElem?_eq_getElem (by simp)]
      exact ⟨_, rfl⟩
    obtain ⟨x, h2⟩ := h2
    simp only [stripAcks, h1, h2, ok_bind]
    split <;> simp

theorem stripAcks_before {dg buf acks : Bytes} (h : stripAcks dg = .ok (buf, acks)) : ∃ flags, BeforeAcks flags dg buf := by
  cases dg with
  | nil => cases h
  | cons a l =>
    refine ⟨a, rfl, ?_⟩
    have h1 : index (a :: l) 0 = .ok a := rfl
    have h2 : index (a :: l) ((a :: l).length - 1) = .ok (((a :: l).getLast?).getD 0) := by
      unfold index
      rw [List.getLast?_eq_getElem?, List.getElem?_eq_getElem (by simp)]
      rfl
    simp only [stripAcks, h1, h2, ok_bind] at h
    rw [show flagAck = 0x10 from rfl] at h
    split at h
    · rename_i hf
      rw [if_pos hf]
      cases h; rfl
    · rename_i hf
      rw [if_neg hf]
      cases h; simp

theorem before_stripAcks {dg buf : Bytes} {flags : UInt8} (h : BeforeAcks flags dg buf) : ∃ acks, stripAcks dg = .ok (buf, acks) := by
  obtain ⟨h0, h⟩ := h
  cases dg with
  | nil => cases h0
  | cons a l =>
    simp only [List.head?_cons, Option.some.injEq] at h0
    subst h0
    cases hs : stripAcks (a :: l) with
    | error e => exact absurd (stripAcks_error_iff.mp hs).1 (by simp)
    | ok p =>
      obtain ⟨b', acks⟩ := p
      obtain ⟨fl, hb⟩ := stripAcks_before hs
      obtain ⟨hb0, hb⟩ := hb
      simp only [List.head?_cons, Option.some.injEq] at hb0
      subst hb0
      rw [← h] at hb
      exact ⟨acks, by rw [hb]⟩

theorem before_head {dg buf : Bytes} {flags : UInt8} (h : BeforeAcks flags dg buf) (hb : buf ≠ []) : buf[0]? = some flags := by
  obtain ⟨h0, h⟩ := h
  cases dg with
  | nil => cases h0
  | cons a l =>
    simp only [List.head?_cons, Option.some.injEq] at h0
    subst h0
    generalize (a :: l).length - _ = k at h
    cases k with
    | zero => exact absurd h hb
    | succ k => rw [h]; rfl

theorem expandPacket_of {buf buf' : Bytes} {flags off : UInt8} (h0 : buf[0]? = some flags) (h5 : flags.toNat &&& 0x80 ≠ 0 → buf[5]? = some off)
    (hex : Expanded flags off.toNat buf buf') : expandPacket buf = .ok buf' := by
  unfold Expanded at hex
  unfold expandPacket index
  rw [show flagZeroCode = 0x80 from rfl]
  simp only [h0, ok_bind]
  split at hex
  · rename_i hz
    rw [if_pos hz]
    simp only [h5 hz, ok_bind]
    obtain ⟨hd, pl, pl', rfl, rfl, rfl, hl⟩ := hex
    by_cases hp : pl = []
    · subst hp
      have e : zeroCodeExpand [] = [] := rfl
      simp only [List.append_nil, e]
      rw [List.drop_eq_nil_of_le hl.2, List.take_of_length_le hl.2, e, List.append_nil]
    · have hl := hl.1 hp
      rw [List.take_left' hl, List.drop_left' hl]
  · rename_i hz
    rw [if_neg hz, hex]

theorem expanded_of {buf buf' : Bytes} {flags : UInt8} (h0 : buf[0]? = some flags) (h : expandPacket buf = .ok buf') :
    ∃ off : UInt8, (flags.toNat &&& 0x80 ≠ 0 → buf[5]? = some off) ∧ Expanded flags off.toNat buf buf' := by
  unfold expandPacket index at h
  rw [show flagZeroCode = 0x80 from rfl] at h
  simp only [h0, ok_bind] at h
  split at h
  · rename_i hz
    obtain ⟨o, ho, h⟩ := bind_ok.mp h
    have ho : buf[5]? = some o := by
      split at ho
      · cases ho; assumption
      · cases ho
    refine ⟨o, fun _ => ho, ?_⟩
    unfold Expanded
    rw [if_pos hz]
    cases h
    refine ⟨_, _, _, (List.take_append_drop (6 + o.toNat) buf).symm, rfl, rfl, ?_, by rw [List.length_take]; exact Nat.min_le_left _ _⟩
    intro hp
    rw [List.length_take, Nat.min_eq_left]
    rcases Nat.le_total (6 + o.toNat) buf.length with h | h
    · exact h
    · exact absurd (List.drop_eq_nil_of_le h) hp
  · rename_i hz
    cases h
    refine ⟨0, fun h => absurd h hz, ?_⟩
    unfold Expanded
    rw [if_neg hz]

theorem header_part {buf num : Bytes} (hn : num ≠ []) (hl : num.length < 6) (h : slice buf 6 12 = num) : ∃ hd, buf = hd ++ num ∧ hd.length = 6 := by
  have h6 : 6 < buf.length := by
    rcases Nat.lt_or_ge 6 buf.length with h' | h'
    · exact h'
    · rw [slice, List.drop_eq_nil_of_le h'] at h
      exact absurd h.symm hn
  refine ⟨buf.take 6, ?_, by simp; omega⟩
  have e : buf.drop 6 = num := by
    rw [slice] at h
    rw [List.take_of_length_le] at h
    · exact h
    · have := congrArg List.length h
      simp only [List.length_take, List.length_drop] at this ⊢
      omega
  rw [← e, List.take_append_drop]

/-- **C16, exactly when.** A datagram lets an exception other than `MessageDeserializationError` escape exactly if it ends before the end of its
message number, and then the one given by `Truncated`. -/
theorem C16_truncated (env : DeserEnv) (hc : Configured env) (st : DeserState) (dg : Bytes) (e : Exc) :
    ((deserialize env st dg).1 = .error e ∧ e ≠ .messageDeserialization) ↔ Truncated dg e := by
  constructor
  · rintro ⟨h, hne⟩
    unfold deserialize at h
    cases hs : stripAcks dg with
    | error e' =>
      simp only [hs] at h
      obtain ⟨rfl, rfl⟩ := stripAcks_error_iff.mp hs
      cases h
      exact .empty
    | ok p =>
      obtain ⟨buf, acks⟩ := p
      simp only [hs] at h
      obtain ⟨flags, hb⟩ := stripAcks_before hs
      by_cases hbe : buf = []
      · subst hbe
        have : expandPacket [] = .error .indexError := rfl
        simp only [this] at h
        cases h
        exact .onlyAcks hb
      · have h0 := before_head hb hbe
        cases he : expandPacket buf with
        | error e' =>
          simp only [he] at h
          cases h
          unfold expandPacket index at he
          rw [show flagZeroCode = 0x80 from rfl] at he
          simp only [h0, ok_bind] at he
          split at he
          · rename_i hz
            rcases bind_error.mp he with he | ⟨_, _, he⟩
            · obtain ⟨rfl, hl⟩ := index_error (l := buf) (i := 5) he
              exact .zeroCodedHeader hb hz (by omega)
            · cases he
          · cases he
        | ok buf' =>
          simp only [he] at h
          obtain ⟨off, h5, hex⟩ := expanded_of h0 he
          rcases deserializeRest_outcomes hc st buf' acks with ⟨r, h'⟩ | h' | ⟨e', hh, h'⟩
          · rw [h'] at h; cases h
          · rw [h'] at h; cases h; exact absurd rfl hne
          · rw [h'] at h
            cases h
            have hlen : ¬ buf'.length ≤ 6 := by
              intro hl
              unfold deserializeRest decodeTemplate at h'
              simp only [hl, if_true] at h'
              cases h'
              exact hne rfl
            rcases decodeHeader_error_iff.mp hh with ⟨rfl, hn | hn | hn⟩ | ⟨rfl, x, hn⟩
            · exfalso
              have := congrArg List.length hn
              simp only [slice, List.length_take, List.length_drop, List.length_nil] at this
              omega
            · obtain ⟨hd, e1, e2⟩ := header_part (by simp) (by simp) hn
              exact .number hb hbe h5 hex e1 e2 (.inl rfl)
            · obtain ⟨hd, e1, e2⟩ := header_part (by simp) (by simp) hn
              exact .number hb hbe h5 hex e1 e2 (.inr rfl)
            · obtain ⟨hd, e1, e2⟩ := header_part (by simp) (by simp) hn
              exact .longNumber hb hbe h5 hex e1 e2
  · have hnum : ∀ {flags off : UInt8} {buf buf' hd num : Bytes} {e : Exc}, BeforeAcks flags dg buf → buf ≠ [] →
        (flags.toNat &&& 0x80 ≠ 0 → buf[5]? = some off) → Expanded flags off.toNat buf buf' → buf' = hd ++ num → hd.length = 6 →
        num ≠ [] → num.length < 6 → decodeHeader env.dict num = .error e → (deserialize env st dg).1 = .error e := by
      intro flags off buf buf' hd num e hb hbe h5 hex e1 e2 hn hl hh
      obtain ⟨acks, hs⟩ := before_stripAcks hb
      have hnl : 0 < num.length := by cases num with | nil => exact absurd rfl hn | cons => simp
      have hsl : slice buf' 6 12 = num := by
        rw [slice, e1, List.drop_left' e2, List.take_of_length_le (by omega)]
      have hlen : ¬ buf'.length ≤ 6 := by rw [e1, List.length_append]; omega
      unfold deserialize
      simp only [hs, expandPacket_of (before_head hb hbe) h5 hex]
      unfold deserializeRest decodeTemplate
      simp only [hlen, if_false, hsl, hh]
    intro h
    cases h with
    | empty => exact ⟨rfl, by simp⟩
    | onlyAcks hb =>
      obtain ⟨acks, hs⟩ := before_stripAcks hb
      have : expandPacket [] = .error .indexError := rfl
      unfold deserialize
      simp only [hs, this]
      exact ⟨trivial, by simp⟩
    | @zeroCodedHeader flags _ buf hb hz hl =>
      obtain ⟨acks, hs⟩ := before_stripAcks hb
      have : expandPacket buf = .error .indexError := by
        by_cases hbe : buf = []
        · subst hbe; rfl
        · unfold expandPacket index
          rw [show flagZeroCode = 0x80 from rfl]
          simp only [before_head hb hbe, ok_bind]
          rw [if_pos hz, List.getElem?_eq_none (by omega)]
          rfl
      unfold deserialize
      simp only [hs, this]
      exact ⟨trivial, by simp⟩
    | number hb hbe h5 hex e1 e2 hn =>
      refine ⟨hnum hb hbe h5 hex e1 e2 ?_ ?_ (decodeHeader_error_iff.mpr (.inl ⟨rfl, .inr hn⟩)), by simp⟩ <;>
        rcases hn with rfl | rfl <;> simp
    | longNumber hb hbe h5 hex e1 e2 =>
      exact ⟨hnum hb hbe h5 hex e1 e2 (by simp) (by simp) (decodeHeader_error_iff.mpr (.inr ⟨rfl, _, rfl⟩)), by simp⟩

/-- **C16, examples:** the empty datagram, one that consists only of (announced) acks, a zero-coded one of five bytes and
one that ends inside the message number raise `IndexError`, whatever the configuration. -/
theorem C16_index_error (env : DeserEnv) (st : DeserState) :
    (deserialize env st []).1 = .error .indexError ∧
    (deserialize env st [0x10, 0, 0, 0, 1]).1 = .error .indexError ∧
    (deserialize env st [0x80, 0, 0, 0, 9]).1 = .error .indexError ∧
    (deserialize env st [0, 0, 0, 0, 9, 0, 0xff]).1 = .error .indexError := by
  refine ⟨rfl, rfl, rfl, rfl⟩

/-- **C16, example:** a datagram that ends inside the number of a Low-frequency message raises `struct.error`, whatever
the configuration. -/
theorem C16_struct_error (env : DeserEnv) (st : DeserState) :
    (deserialize env st [0, 0, 0, 0, 9, 0, 0xff, 0xff, 1]).1 = .error .structError := rfl

theorem demo_configured : Configured demoDeser := by
  refine ⟨⟨_, rfl⟩, ?_, ?_⟩
  · intro f n t _ h; cases h
  · intro f n t h
    have : t = demoTemplate := by
      simp only [TemplateDict.getTemplateByPair, demoDeser, demoDict, Dict.get?] at h
      split at h
      · cases h; rfl
      · cases h
    subst this
    exact demo_wf.vars

theorem decodeHeader_ok {dict : TemplateDict} {h : Bytes} {t? : Option Template} (hh : decodeHeader dict h = .ok t?) :
    ∃ f n, InClass f n ∧ numPrefix f n <+: h ∧ t? = dict.getTemplateByPair f n := by
  simp only [decodeHeader, bind_ok, Except.ok.injEq] at hh
  obtain ⟨f, hf, n, hn, rfl⟩ := hh
  have hne : ∀ {a : UInt8}, a ≠ 0xff → a.toNat < 255 := by
    intro a ha
    have h1 := a.toNat_lt
    have : a.toNat ≠ 255 := fun h => ha (UInt8.toNat_inj.mp h)
    omega
  have hB : ∀ {a : UInt8} {n : Int}, structUnpack .big .B [a] = .ok n → n = (a.toNat : Int) := by
    intro a n h
    have := (structUnpack_unsigned rfl h).1
    simpa [Endian.order, leVal] using this
  match h with
  | [] => cases hf
  | a :: l =>
    by_cases ha : a = 0xff
    · subst ha
      match l with
      | [] => cases hf
      | b :: l =>
        by_cases hb : b = 0xff
        · subst hb
          match l with
          | [] => cases hf
          | c :: l =>
            by_cases hc : c = 0xff
            · subst hc
              have hf' : decodeFrequency (0xff :: 0xff :: 0xff :: l) = .ok .fixed := by simp [decodeFrequency, index, ok_bind]
              rw [hf'] at hf
              cases hf
              simp only [decodeNum, hf', ok_bind] at hn
              match l with
              | [] => cases hn
              | d :: l =>
                have := hB (a := d) hn
                subst this
                exact ⟨.fixed, d.toNat, d.toNat_lt, by simp [numPrefix], rfl⟩
            · have hf' : decodeFrequency (0xff :: 0xff :: c :: l) = .ok .low := by simp [decodeFrequency, index, ok_bind, hc]
              rw [hf'] at hf
              cases hf
              simp only [decodeNum, hf', ok_bind] at hn
              match l with
              | [] => cases hn
              | d :: l =>
                have h1 := (structUnpack_unsigned rfl (show structUnpack .big .H [c, d] = .ok n from hn)).1
                have h2 : n = ((d.toNat + 256 * c.toNat : Nat) : Int) := by simpa [Endian.order, leVal] using h1
                subst h2
                have hd := d.toNat_lt
                have hc' := hne hc
                refine ⟨.low, d.toNat + 256 * c.toNat, ?_, ?_, rfl⟩
                · show d.toNat + 256 * c.toNat < 0xff00
                  omega
                · have e1 : (d.toNat + 256 * c.toNat) / 256 = c.toNat := by omega
                  have e2 : (d.toNat + 256 * c.toNat) % 256 = d.toNat := by omega
                  simp [numPrefix, e1, e2]
        · have hf' : decodeFrequency (0xff :: b :: l) = .ok .medium := by simp [decodeFrequency, index, ok_bind, hb]
          rw [hf'] at hf
          cases hf
          simp only [decodeNum, hf', ok_bind] at hn
          have := hB (a := b) hn
          subst this
          exact ⟨.medium, b.toNat, hne hb, by simp [numPrefix], rfl⟩
    · have hf' : decodeFrequency (a :: l) = .ok .high := by simp [decodeFrequency, index, ok_bind, ha]
      rw [hf'] at hf
      cases hf
      simp only [decodeNum, hf', ok_bind] at hn
      have := hB (a := a) hn
      subst this
      exact ⟨.high, a.toNat, hne ha, by simp [numPrefix], rfl⟩

/-! ## C17 -/

/-- **C17.** Whenever `deserialize` returns a message, the datagram is `buf` followed by exactly the acks the message
carries; after zero-decoding `buf` into `buf'`, the bytes from the body position on start with `raw`, which is
exactly the fields of the template's blocks one after the other (`BlocksBytes`), and the message holds exactly the
blocks read from them.  The template is the one registered for the message number that follows the six header bytes. -/
theorem C17_message_is_exact_parse (env : DeserEnv) (st : DeserState) (dg : Bytes) (m : Message)
    (h : (deserialize env st dg).1 = .ok (some m)) :
    ∃ (t : Template) (flags off : UInt8) (buf buf' raw post : Bytes) (bss : List (List BlockData)),
      dg.head? = some flags ∧ dg = buf ++ ackTrailer flags m.acks ∧ AcksOk flags m.acks ∧
      buf[5]? = some off ∧ Expanded flags off.toNat buf buf' ∧
      (∃ f n, InClass f n ∧ numPrefix f n <+: buf'.drop 6 ∧ env.dict.getTemplateByPair f n = some t) ∧
      (buf' ++ ackTrailer flags m.acks).drop (6 + freqBytes t.freq + off.toNat) = raw ++ post ∧
      BlocksBytes env.rt t.blocks raw bss ∧ m.blocks = bss.flatten.foldl addBlock [] ∧
      m.name = t.name ∧ m.sendFlags = flags.toNat ∧ slice dg 1 5 = idBytes m.packetId ∧ m.packetId < 2 ^ 32 ∧
      m.reliable = decide (flags.toNat &&& 0x40 ≠ 0) := by
  obtain ⟨hid1, hid2⟩ := deserialize_id h
  obtain ⟨buf, acks, buf', t, hs, he, hlen, hdh, _, _, hdd⟩ := deserialize_inv h
  have hne : buf ≠ [] := by
    intro hc; subst hc
    simp [expandPacket, index, error_bind] at he
  obtain ⟨flags, h0, hb0, hcat, hack⟩ := stripAcks_inv hs hne
  obtain ⟨fl, pid, off, pos', m₁, hfl, hpid, hoff, hap, hbl, _, hacks, hname, hflags, _, hrel⟩ := decodeData_inv hdd
  obtain ⟨raw, post, bss, hdrop, _, hbb, hblocks⟩ := decodeBlocks_inv hbl
  -- the first byte and the sixth are not touched by zero-decoding
  have hkeep : (∀ i, i < 6 → i < buf.length → buf'[i]? = buf[i]?) ∧ (flags.toNat &&& 0x80 = 0 → buf' = buf) ∧
      (flags.toNat &&& 0x80 ≠ 0 → ∃ o, buf[5]? = some o ∧
        buf' = buf.take (6 + o.toNat) ++ zeroCodeExpand (buf.drop (6 + o.toNat))) := by
    unfold expandPacket index at he
    rw [show flagZeroCode = 0x80 from rfl] at he
    simp only [hb0, ok_bind] at he
    by_cases hz : flags.toNat &&& 0x80 = 0
    · simp only [hz, ne_eq, not_true_eq_false, if_false, Except.ok.injEq] at he
      subst he
      exact ⟨fun _ _ _ => rfl, fun _ => rfl, fun h => absurd hz h⟩
    · simp only [ne_eq, hz, not_false_eq_true, if_true, bind_ok] at he
      obtain ⟨o, ho, he⟩ := he
      have ho' : buf[5]? = some o := by
        split at ho
        · cases ho; assumption
        · cases ho
      simp only [Except.ok.injEq] at he
      refine ⟨?_, fun h => absurd h hz, fun _ => ⟨o, ho', he.symm⟩⟩
      intro i hi hil
      rw [← he, List.getElem?_append_left (by simp; omega), List.getElem?_take_of_lt (by omega)]
  have hblen : 0 < buf.length := List.length_pos_iff.mpr hne
  have hbuf'0 : buf'[0]? = some flags := by rw [hkeep.1 0 (by omega) hblen, hb0]
  have hfleq : fl = flags := by
    rw [List.getElem?_append_left (by omega), hbuf'0] at hfl
    cases hfl; rfl
  subst hfleq
  -- the offset byte
  obtain ⟨raw5, post5, f5, hd5, hl5, hu5, hst5⟩ := unpackInt_inv (ty := .u8) (by rfl) hoff
  cases hu5
  obtain ⟨rfl, _⟩ := structUnpack_unsigned rfl hst5
  obtain ⟨ob, rfl⟩ : ∃ b, raw5 = [b] := List.length_eq_one_iff.mp hl5
  have hob : (buf' ++ acks)[5]? = some ob := by
    have := congrArg (fun l => l[0]?) hd5
    simpa using this
  have hob' : buf'[5]? = some ob := by rw [List.getElem?_append_left (by omega)] at hob; exact hob
  have hoff' : ((leVal (Endian.big.order [ob]) : Int)).toNat = ob.toNat := by simp [Endian.order, leVal]
  rw [hoff'] at hbl hdrop
  have hbuf5 : buf[5]? = some ob := by
    by_cases hz : fl.toNat &&& 0x80 = 0
    · rw [← hkeep.2.1 hz]; exact hob'
    · obtain ⟨o, ho, _⟩ := hkeep.2.2 hz
      have h5 : 5 < buf.length := by
        rcases Nat.lt_or_ge 5 buf.length with hc | hc
        · exact hc
        · rw [List.getElem?_eq_none hc] at ho; cases ho
      rw [← hkeep.1 5 (by omega) h5]; exact hob'
  -- the acks
  have hackids : acks = ackTrailer fl m.acks ∧ AcksOk fl m.acks := by
    rw [hacks]
    unfold decodeAckPart at hap
    rw [show flagAck = 0x10 from rfl] at hap
    by_cases hf : fl.toNat &&& 0x10 = 0
    · simp only [hf, ne_eq, not_true_eq_false, if_false, Except.ok.injEq] at hap
      subst hap
      simp only [hf, ne_eq, not_true_eq_false, if_false] at hack
      subst hack
      simp only [ackTrailer, hf, ne_eq, not_true_eq_false, if_false]
      exact ⟨trivial, ⟨by simp, by simp, fun _ => rfl⟩⟩
    · simp only [ne_eq, hf, not_false_eq_true, if_true, bind_ok, liftPy_ok] at hap hack
      obtain ⟨n, hn, hap⟩ := hap
      obtain ⟨A, c, rfl, hA⟩ := hack
      have hcat' : buf' ++ (A ++ [c]) = (buf' ++ A) ++ [c] := by simp
      have hc : n.toNat = c.toNat := by
        obtain ⟨raw6, post6, f6, hd6, hl6, hu6, hst6⟩ := unpackInt_inv (ty := .u8) (by rfl) hn
        cases hu6
        obtain ⟨rfl, _⟩ := structUnpack_unsigned rfl hst6
        rw [hcat'] at hd6
        have e : ((buf' ++ A) ++ [c]).length - 1 = (buf' ++ A).length := by simp
        rw [e, List.drop_left] at hd6
        obtain ⟨b, rfl⟩ : ∃ b, raw6 = [b] := List.length_eq_one_iff.mp hl6
        simp only [List.singleton_append, List.cons.injEq] at hd6
        rw [hd6.1]
        simp [Endian.order, leVal]
      rw [hc] at hap
      have hsl : sliceFrom (buf' ++ (A ++ [c])) (((buf' ++ (A ++ [c])).length - 1 : Nat) - ((c.toNat * 4 : Nat) : Int)) =
          A ++ [c] := by
        have : (((buf' ++ (A ++ [c])).length - 1 : Nat) : Int) - ((c.toNat * 4 : Nat) : Int) = (buf'.length : Int) := by
          simp only [List.length_append, hA, List.length_singleton]; omega
        rw [this]
        simp [sliceFrom]
      rw [hsl] at hap
      obtain ⟨ids, post', hlen', hlt, hdr, rfl⟩ := decodeAcks_inv hap
      simp only [List.drop_zero] at hdr
      have hlen2 : ids.flatMap ackBytes = A ∧ [c] = post' := by
        have e := acks_length ids
        rw [hlen', ← hA] at e
        exact ⟨((List.append_inj hdr e.symm).1).symm, (List.append_inj hdr e.symm).2⟩
      have hcl := c.toNat_lt
      refine ⟨?_, ⟨by simp; omega, by simpa using hlt, fun h => absurd h hf⟩⟩
      simp only [ackTrailer, ne_eq, hf, not_false_eq_true, if_true, List.nil_append, hlen2.1]
      rw [hlen']
      simp
  have hm₁ : m₁.name = t.name ∧ m₁.sendFlags = fl.toNat ∧ m₁.reliable = false := by
    unfold decodeAckPart at hap
    split at hap
    · simp only [bind_ok] at hap
      obtain ⟨_, _, hap⟩ := hap
      obtain ⟨ids, _, _, _, _, rfl⟩ := decodeAcks_inv hap
      exact ⟨rfl, rfl, rfl⟩
    · cases hap; exact ⟨rfl, rfl, rfl⟩
  have hreg : ∃ f n, InClass f n ∧ numPrefix f n <+: buf'.drop 6 ∧ env.dict.getTemplateByPair f n = some t := by
    obtain ⟨f, n, h1, h2, h3⟩ := decodeHeader_ok hdh
    refine ⟨f, n, h1, ?_, h3.symm⟩
    exact h2.trans (List.take_prefix _ _)
  rw [hackids.1] at hcat hdrop
  refine ⟨t, fl, ob, buf, buf', raw, post, bss, by rw [List.head?_eq_getElem?]; exact h0, hcat, hackids.2, hbuf5, ?_, hreg,
    hdrop, hbb, by simpa using hblocks, by rw [hname, hm₁.1], by rw [hflags, hm₁.2.1], hid1, hid2, ?_⟩
  · unfold Expanded
    by_cases hz : fl.toNat &&& 0x80 = 0
    · rw [if_neg (by simp [hz])]; exact hkeep.2.1 hz
    · rw [if_pos hz]
      obtain ⟨o, ho, hb'⟩ := hkeep.2.2 hz
      rw [hbuf5] at ho; cases ho
      refine ⟨_, _, _, (List.take_append_drop (6 + ob.toNat) buf).symm, hb', rfl, ?_, by rw [List.length_take]; exact Nat.min_le_left _ _⟩
      intro hp
      have := List.length_pos_iff.mpr hp
      simp at *; omega
  · rw [hrel, hm₁.2.2, hm₁.2.1]; rfl

/-- What was read does not depend on what follows it: appending bytes to the body of a datagram never changes the
blocks decoded. -/
theorem decodeBlocks_prefix_stable (rt : Runtime) (tbs : List TBlock) (hw : ∀ tb ∈ tbs, ∀ v ∈ tb.vars, WFVar v) (data more : Bytes)
    (pos pos' : Nat) (blocks : Dict String (List BlockData)) (hpos : pos ≤ data.length)
    (h : decodeBlocks rt data tbs pos [] = .ok (blocks, pos')) :
    decodeBlocks rt (data ++ more) tbs pos [] = .ok (blocks, pos') := by
  obtain ⟨raw, post, bss, hd, rfl, hb, rfl⟩ := decodeBlocks_inv h
  refine decodeBlocks_at hw (post := post ++ more) ?_ hb
  rw [List.drop_append_of_le_length hpos, hd, List.append_assoc]

theorem take_prefix_header {dict : TemplateDict} {f n} (hc : InClass f n) {k : Nat} (hk : k < (numPrefix f n).length) :
    ∃ e, decodeHeader dict ((numPrefix f n).take k) = .error e := by
  cases f
  case high =>
    have : k = 0 := by simp [numPrefix] at hk; omega
    subst this; exact ⟨.indexError, rfl⟩
  case medium =>
    have : k = 0 ∨ k = 1 := by simp [numPrefix] at hk; omega
    rcases this with rfl | rfl <;> exact ⟨.indexError, rfl⟩
  case fixed =>
    have : k = 0 ∨ k = 1 ∨ k = 2 ∨ k = 3 := by simp [numPrefix] at hk; omega
    rcases this with rfl | rfl | rfl | rfl
    · exact ⟨.indexError, rfl⟩
    · exact ⟨.indexError, rfl⟩
    · exact ⟨.indexError, rfl⟩
    · exact ⟨.structError, rfl⟩
  case low =>
    have hc' : n < 0xff00 := hc
    have hb : UInt8.ofNat (n / 256) ≠ 0xff := byteNe (by omega)
    have : k = 0 ∨ k = 1 ∨ k = 2 ∨ k = 3 := by simp [numPrefix] at hk; omega
    rcases this with rfl | rfl | rfl | rfl
    · exact ⟨.indexError, rfl⟩
    · exact ⟨.indexError, rfl⟩
    · exact ⟨.indexError, rfl⟩
    · refine ⟨.structError, ?_⟩
      simp only [numPrefix, List.take_succ_cons, List.take_zero, decodeHeader, decodeNum, decodeFrequency, index,
        List.getElem?_cons_zero, List.getElem?_cons_succ, ok_bind, if_true, if_neg hb]
      rfl

/-- **C17.** A datagram cut off before the end of its last field never yields a (partial) message. -/
theorem C17_truncated_yields_no_message (senv : SerEnv) (renv : DeserEnv) (st : DeserState) (t : Template) (m : Message)
    (hc : Connected senv renv t) (hwf : WFTemplate t) (hm : Fills senv.rt t m) (hf : m.sendFlags < 256)
    (hz : m.sendFlags &&& 0x80 = 0) (ha : m.sendFlags &&& 0x10 = 0) (hp : m.packetId < 2 ^ 31) :
    ∃ dg, serialize senv m = .ok (some dg) ∧ ∀ k, k < dg.length - (extraBytes t).length →
      ∀ m', (deserialize renv st (dg.take k)).1 ≠ .ok (some m') := by
  obtain ⟨rs, hrs⟩ := expBlocks_of senv.rt m hm.blocks
  obtain ⟨body, hb, hd⟩ := blocks_roundtrip senv.rt hwf.vars hrs
  have hs := serialize_ok senv m (by rw [hm.name]; exact hc.sender) hc.senderXml hf hp hb
  refine ⟨_, hs, ?_⟩
  have hto : (UInt8.ofNat m.sendFlags).toNat = m.sendFlags := by simp; omega
  intro k hk m' hm'
  obtain ⟨buf, acks, buf', t', hst, he, hlen, hdh, _, _, hdd⟩ := deserialize_inv hm'
  have hne : buf ≠ [] := by
    intro hc; subst hc
    simp [expandPacket, index, error_bind] at he
  obtain ⟨flags, h0, hb0, hcat, hack⟩ := stripAcks_inv hst hne
  have hfl : flags = UInt8.ofNat m.sendFlags := by
    cases k with
    | zero => simp at h0
    | succ k => simpa using h0.symm
  subst hfl
  have hacks : acks = [] := by simpa [hto, ha] using hack
  subst hacks
  rw [List.append_nil] at hcat
  have hbuf' : buf' = buf := by
    unfold expandPacket index at he
    rw [show flagZeroCode = 0x80 from rfl] at he
    simp only [hb0, ok_bind, hto, hz, ne_eq, not_true_eq_false, if_false, Except.ok.injEq] at he
    exact he.symm
  subst hbuf'
  subst hcat
  rw [hwf.hex] at *
  generalize hD : UInt8.ofNat m.sendFlags :: (idBytes m.packetId ++ [0] ++ (numPrefix t.freq t.msgNum ++ body ++ extraBytes t)) = D at *
  have hDlen : D.length = 6 + freqBytes t.freq + body.length + (extraBytes t).length := by
    rw [← hD, ← numPrefix_length t.freq t.msgNum]
    simp only [List.length_cons, List.length_append, idBytes_length, List.length_nil]; omega
  have hD6 : D.drop 6 = numPrefix t.freq t.msgNum ++ (body ++ extraBytes t) := by
    rw [← hD]; simp [idBytes]
  rcases Nat.lt_or_ge k (6 + freqBytes t.freq) with hshort | hlong
  · -- cut inside the message number
    have hk6 : 6 < k := by simp at hlen; omega
    have e : slice (D.take k) 6 12 = (numPrefix t.freq t.msgNum).take (k - 6) := by
      rw [slice, List.drop_take, hD6, List.take_take, List.take_append_of_le_length (by rw [numPrefix_length]; omega)]
      have h4 : freqBytes t.freq ≤ 4 := by cases t.freq <;> decide
      rw [Nat.min_eq_right (by omega)]
    obtain ⟨e', he'⟩ := take_prefix_header (dict := renv.dict) hwf.inClass (k := k - 6) (by rw [numPrefix_length]; omega)
    rw [e, he'] at hdh; cases hdh
  · -- cut inside the body
    have ht' : t' = t := by
      have e : ∃ r, slice (D.take k) 6 12 = numPrefix t.freq t.msgNum ++ r := by
        have h4 : freqBytes t.freq ≤ 4 := by cases t.freq <;> decide
        refine ⟨(((body ++ extraBytes t).take (k - 6 - freqBytes t.freq)).take (6 - freqBytes t.freq)), ?_⟩
        rw [slice, List.drop_take, hD6, List.take_append, List.take_append, numPrefix_length]
        have hp1 : List.take (k - 6) (numPrefix t.freq t.msgNum) = numPrefix t.freq t.msgNum :=
          List.take_of_length_le (by rw [numPrefix_length]; omega)
        rw [hp1, numPrefix_length]
        rw [List.take_of_length_le (by rw [numPrefix_length]; omega)]
      obtain ⟨r, hr⟩ := e
      rw [hr, decodeHeader_prefix renv.dict hwf.inClass r, hc.receiver] at hdh
      cases hdh; rfl
    subst ht'
    rw [List.append_nil] at hdd
    obtain ⟨fl, pid, off, pos', m₁, hfl, hpid, hoff, hap, hbl, _⟩ := decodeData_inv hdd
    obtain ⟨raw, post, bss, hdrop, _, hbb, _⟩ := decodeBlocks_inv hbl
    have hoff0 : off = 0 := by
      obtain ⟨raw5, post5, f5, hd5, hl5, hu5, hst5⟩ := unpackInt_inv (ty := .u8) (by rfl) hoff
      cases hu5
      obtain ⟨rfl, _⟩ := structUnpack_unsigned rfl hst5
      obtain ⟨ob, rfl⟩ : ∃ b, raw5 = [b] := List.length_eq_one_iff.mp hl5
      have h5 : (D.take k)[5]? = some ob := by
        have := congrArg (fun l => l[0]?) hd5
        simpa using this
      rw [List.getElem?_take_of_lt (by omega), ← hD] at h5
      simp [idBytes] at h5
      rw [← h5]; rfl
    subst hoff0
    simp only [Int.toNat_zero, Nat.add_zero] at hdrop
    -- the same bytes are read from the whole datagram
    have hfull : D.drop (6 + freqBytes t'.freq) = raw ++ (post ++ (D.drop k)) := by
      have h1 : D = D.take k ++ D.drop k := (List.take_append_drop k D).symm
      have h2 : (D.take k ++ D.drop k).drop (6 + freqBytes t'.freq) = raw ++ (post ++ D.drop k) := by
        rw [List.drop_append_of_le_length (by simp; omega), hdrop, List.append_assoc]
      rw [← h1] at h2; exact h2
    have h1 := decodeBlocks_at (blocks := []) hwf.vars hfull hbb
    have h2 := hd (UInt8.ofNat m.sendFlags :: (idBytes m.packetId ++ [0] ++ numPrefix t'.freq t'.msgNum)) (extraBytes t') []
    have e1 : UInt8.ofNat m.sendFlags :: (idBytes m.packetId ++ [0] ++ numPrefix t'.freq t'.msgNum) ++ body ++ extraBytes t' = D := by
      rw [← hD]; simp
    have e2 : (UInt8.ofNat m.sendFlags :: (idBytes m.packetId ++ [0] ++ numPrefix t'.freq t'.msgNum)).length = 6 + freqBytes t'.freq := by
      rw [← numPrefix_length t'.freq t'.msgNum]
      simp only [List.length_cons, List.length_append, idBytes_length, List.length_nil]; omega
    rw [e1, e2, ← hc.runtime, h1] at h2
    simp only [Except.ok.injEq, Prod.mk.injEq] at h2
    have hrawlen : raw.length = body.length := by omega
    have := congrArg List.length hdrop
    simp only [List.length_drop, List.length_take, List.length_append] at this
    omega

/-! ## C18 -/

/-- Process datagrams one after the other with one deserializer object; the outcome of each. -/
def processAll (env : DeserEnv) : DeserState → List Bytes → List (Py (Option Message))
  | _, [] => []
  | st, dg :: dgs => (deserialize env st dg).1 :: processAll env (deserialize env st dg).2 dgs

theorem deserialize_memoryless (env : DeserEnv) (st st' : DeserState) (dg : Bytes) :
    (deserialize env st dg).1 = (deserialize env st' dg).1 := by
  unfold deserialize
  cases stripAcks dg with
  | error e => rfl
  | ok p =>
    obtain ⟨buf, acks⟩ := p
    simp only
    cases expandPacket buf with
    | error e => rfl
    | ok buf' =>
      simp only [deserializeRest, decodeTemplate]
      split
      · rename_i e st1 h
        split at h
        · cases h
          rename_i hl
          simp only [hl, if_true]
        · rename_i hl
          simp only [hl, if_false]
          cases hd : decodeHeader env.dict (slice buf' 6 12) with
          | error e' => rw [hd] at h; cases h; rfl
          | ok t? => rw [hd] at h; cases h
      all_goals
        rename_i st1 h
        split at h
        · cases h
        · rename_i hl
          simp only [hl, if_false]
          cases hd : decodeHeader env.dict (slice buf' 6 12) with
          | error e' => rw [hd] at h; cases h
          | ok t? =>
            rw [hd] at h
            simp only [Prod.mk.injEq, Except.ok.injEq] at h
            obtain ⟨h1, rfl⟩ := h
            simp only [h1]

/-- **C18.** Whatever was processed before (also what failed), every datagram has the outcome it has on a fresh object. -/
theorem C18_no_memory (env : DeserEnv) (st : DeserState) (dgs : List Bytes) :
    processAll env st dgs = dgs.map (fun dg => (deserialize env {} dg).1) := by
  induction dgs generalizing st with
  | nil => rfl
  | cons dg dgs ih => rw [processAll, ih, deserialize_memoryless env st {} dg]; rfl

example : processAll demoDeser {} [[0, 0, 0, 0, 9, 0, 0xff, 0xff, 1], [], [0x40, 0, 0, 0, 9, 0, 0xff, 0xff, 1, 44, 77, 0, 0, 0, 1, 0, 0]] =
    [.error .structError, .error .indexError, (deserialize demoDeser {} [0x40, 0, 0, 0, 9, 0, 0xff, 0xff, 1, 44, 77, 0, 0, 0, 1, 0, 0]).1] := by
  decide +kernel

/-! ## C19 -/

/-- How a datagram of a peer for a known template gets to the decision. -/
theorem deserialize_reaches (env : DeserEnv) (st : DeserState) (t : Template) (hin : InClass t.freq t.msgNum)
    (hreg : env.dict.getTemplateByPair t.freq t.msgNum = some t)
    (flags : UInt8) (pid : Nat) (acks : List Nat) (hn : acks.length ≤ 255) (body e : Bytes)
    (he : Encoded flags (numPrefix t.freq t.msgNum ++ body) e) :
    (deserialize env st (flags :: (idBytes pid ++ [0] ++ e) ++ ackTrailer flags acks)).1 = (do
      let allowed ← validateUdpMsg env.xml t.name
      if !allowed then .ok none
      else
        let want ← wantsParse env t.name
        if want then runDecode env.rt (some t) ((flags :: (idBytes pid ++ [0] ++ (numPrefix t.freq t.msgNum ++ body))) ++ ackTrailer flags acks)
        else .ok none) := by
  have hs := stripAcks_ok flags (idBytes pid ++ [0] ++ e) acks hn
  have hx := expandPacket_ok flags pid he
  have hdt := (C11_prefix_identifies_template env st t.freq t.msgNum hin (flags :: (idBytes pid ++ [0])) rfl body).2.2
  rw [hreg] at hdt
  have e1 : flags :: (idBytes pid ++ [0]) ++ numPrefix t.freq t.msgNum ++ body =
      flags :: (idBytes pid ++ [0] ++ (numPrefix t.freq t.msgNum ++ body)) := by simp
  rw [e1] at hdt
  simp only [deserialize, hs, hx, deserializeRest, hdt, Option.isSome_some]
  simp only [currentName, ok_bind]

/-- **C19.** With deferred parsing on, a datagram of a message without registered handler gives `None`, whatever its body
(also a malformed one), however encoded. -/
theorem C19_unhandled_skipped (env : DeserEnv) (st : DeserState) (t : Template) (hin : InClass t.freq t.msgNum)
    (hreg : env.dict.getTemplateByPair t.freq t.msgNum = some t) (hxml : ∃ b, validateUdpMsg env.xml t.name = .ok b)
    (names : List String) (hh : env.handled? = some names) (hnot : t.name ∉ names) (hdef : env.deferred = true)
    (flags : UInt8) (pid : Nat) (acks : List Nat) (hn : acks.length ≤ 255) (body e : Bytes)
    (he : Encoded flags (numPrefix t.freq t.msgNum ++ body) e) :
    (deserialize env st (flags :: (idBytes pid ++ [0] ++ e) ++ ackTrailer flags acks)).1 = .ok none := by
  rw [deserialize_reaches env st t hin hreg flags pid acks hn body e he]
  obtain ⟨b, hb⟩ := hxml
  have hw : wantsParse env t.name = .ok false := by simp [wantsParse, hh, hnot, hdef]
  rw [hb, ok_bind]
  cases b
  · rfl
  · simp only [Bool.not_true, Bool.false_eq_true, if_false, hw, ok_bind]

/-- **C19.** A message that message.xml routes away from UDP gives `None`, handled or not, whatever its body. -/
theorem C19_banned_skipped (env : DeserEnv) (st : DeserState) (t : Template) (hin : InClass t.freq t.msgNum)
    (hreg : env.dict.getTemplateByPair t.freq t.msgNum = some t) (fl : String) (hx : env.xml.get? t.name = some (some fl))
    (hfl : fl ≠ "template")
    (flags : UInt8) (pid : Nat) (acks : List Nat) (hn : acks.length ≤ 255) (body e : Bytes)
    (he : Encoded flags (numPrefix t.freq t.msgNum ++ body) e) :
    (deserialize env st (flags :: (idBytes pid ++ [0] ++ e) ++ ackTrailer flags acks)).1 = .ok none := by
  rw [deserialize_reaches env st t hin hreg flags pid acks hn body e he]
  have : validateUdpMsg env.xml t.name = .ok false := by simp [validateUdpMsg, hx, hfl]
  rw [this, ok_bind]; rfl

/-- **C19.** Otherwise the body is parsed: the outcome is that of decoding the body against the template (so a malformed
body no longer gives the result of a skip), and does not depend on who handles the message. -/
theorem C19_otherwise_parsed (env : DeserEnv) (st : DeserState) (t : Template) (hin : InClass t.freq t.msgNum)
    (hreg : env.dict.getTemplateByPair t.freq t.msgNum = some t) (hxml : validateUdpMsg env.xml t.name = .ok true)
    (hh : ∃ names, env.handled? = some names ∧ (t.name ∈ names ∨ env.deferred = false))
    (flags : UInt8) (pid : Nat) (acks : List Nat) (hn : acks.length ≤ 255) (body e : Bytes)
    (he : Encoded flags (numPrefix t.freq t.msgNum ++ body) e) :
    (deserialize env st (flags :: (idBytes pid ++ [0] ++ e) ++ ackTrailer flags acks)).1 =
      runDecode env.rt (some t) ((flags :: (idBytes pid ++ [0] ++ (numPrefix t.freq t.msgNum ++ body))) ++ ackTrailer flags acks) := by
  rw [deserialize_reaches env st t hin hreg flags pid acks hn body e he, hxml, ok_bind]
  simp only [Bool.not_true, Bool.false_eq_true, if_false, wantsParse_of hh, ok_bind, if_true]

/-- **C19.** A deserializer that was given no message handler and whose settings say not to make one (`HANDLE_PACKETS` off) cannot read a message that
may come over UDP: it raises `AttributeError`, whatever the body and whether or not parsing is deferred. -/
theorem C19_no_handler (env : DeserEnv) (st : DeserState) (t : Template) (hin : InClass t.freq t.msgNum)
    (hreg : env.dict.getTemplateByPair t.freq t.msgNum = some t)
    (hxml : env.xml.get? t.name = none ∨ env.xml.get? t.name = some (some "template")) (hh : env.handled? = none)
    (flags : UInt8) (pid : Nat) (acks : List Nat) (hn : acks.length ≤ 255) (body e : Bytes)
    (he : Encoded flags (numPrefix t.freq t.msgNum ++ body) e) :
    (deserialize env st (flags :: (idBytes pid ++ [0] ++ e) ++ ackTrailer flags acks)).1 = .error .attributeError := by
  have hx : validateUdpMsg env.xml t.name = .ok true := by
    rcases hxml with h | h <;> simp [validateUdpMsg, h]
  rw [deserialize_reaches env st t hin hreg flags pid acks hn body e he, hx, ok_bind]
  have hw : wantsParse env t.name = .error .attributeError := by simp [wantsParse, hh]
  simp only [Bool.not_true, Bool.false_eq_true, if_false, hw]
  rfl

example : (deserialize { demoDeser with handled? := none } {} [0x40, 0, 0, 0, 9, 0, 0xff, 0xff, 1, 44, 77]).1 = .error .attributeError := by
  decide +kernel

example : InClass demoTemplate.freq demoTemplate.msgNum ∧
    demoDeser.dict.getTemplateByPair demoTemplate.freq demoTemplate.msgNum = some demoTemplate ∧
    (deserialize { demoDeser with handled? := some [] } {} [0x40, 0, 0, 0, 9, 0, 0xff, 0xff, 1, 44, 77]).1 = .ok none ∧
    (deserialize { demoDeser with xml := [("Demo", some "llsd")] } {} [0x40, 0, 0, 0, 9, 0, 0xff, 0xff, 1, 44, 77]).1 = .ok none := by
  refine ⟨by decide, by decide +kernel, by decide +kernel, by decide +kernel⟩

/-! ## C57: extra header bytes -/

/-- **C57, receiving.** Whatever byte 5 announces, the message number is the one that directly follows the six header bytes: if no template has it,
the datagram is ignored; otherwise a message that is returned is one of that template, with its blocks read from `k` bytes further on than
the number ends. -/
theorem C57_number_not_shifted (env : DeserEnv) (st : DeserState) (f : Frequency) (n : Nat) (hin : InClass f n) (flags k : UInt8) (pid : Nat)
    (hz : flags.toNat &&& 0x80 = 0) (ha : flags.toNat &&& 0x10 = 0) (rest : Bytes) :
    (env.dict.getTemplateByPair f n = none →
      (deserialize env st (flags :: (idBytes pid ++ [k] ++ (numPrefix f n ++ rest)))).1 = .ok none) ∧
    ∀ t, env.dict.getTemplateByPair f n = some t → ∀ m,
      (deserialize env st (flags :: (idBytes pid ++ [k] ++ (numPrefix f n ++ rest)))).1 = .ok (some m) →
        m.name = t.name ∧ ∃ raw post bss, (numPrefix f n ++ rest).drop (freqBytes t.freq + k.toNat) = raw ++ post ∧
          BlocksBytes env.rt t.blocks raw bss ∧ m.blocks = bss.flatten.foldl addBlock [] := by
  have hdt := (C11_prefix_identifies_template env st f n hin (flags :: (idBytes pid ++ [k])) rfl rest).2.2
  have e1 : flags :: (idBytes pid ++ [k]) ++ numPrefix f n ++ rest = flags :: (idBytes pid ++ [k] ++ (numPrefix f n ++ rest)) := by simp
  rw [e1] at hdt
  constructor
  · intro hnone
    rw [hnone] at hdt
    have hs : stripAcks (flags :: (idBytes pid ++ [k] ++ (numPrefix f n ++ rest))) =
        .ok (flags :: (idBytes pid ++ [k] ++ (numPrefix f n ++ rest)), []) := by
      simp [stripAcks, index, ok_bind, show flagAck = 0x10 from rfl, ha]
    have hx : expandPacket (flags :: (idBytes pid ++ [k] ++ (numPrefix f n ++ rest))) =
        .ok (flags :: (idBytes pid ++ [k] ++ (numPrefix f n ++ rest))) := by
      simp [expandPacket, index, ok_bind, show flagZeroCode = 0x80 from rfl, hz]
    simp only [deserialize, hs, hx, deserializeRest, hdt, Option.isSome_none]
  · intro t ht m hm
    obtain ⟨t', flags', off, buf, buf', raw, post, bss, h0, hdg, hok, h5, hex, ⟨f', n', hin', hpre, hreg⟩, hdrop, hbb, hbl, hname, -⟩ :=
      C17_message_is_exact_parse env st _ m hm
    simp only [List.head?_cons, Option.some.injEq] at h0
    subst h0
    have hac : ackTrailer flags m.acks = [] := by simp [ackTrailer, ha]
    rw [hac, List.append_nil] at hdg hdrop
    subst hdg
    have hb' : buf' = flags :: (idBytes pid ++ [k] ++ (numPrefix f n ++ rest)) := by
      unfold Expanded at hex
      rw [if_neg (by simp [hz])] at hex
      exact hex
    subst hb'
    have hoff : off = k := by
      simpa [idBytes] using h5.symm
    subst hoff
    have hd6 : (flags :: (idBytes pid ++ [off] ++ (numPrefix f n ++ rest))).drop 6 = numPrefix f n ++ rest := rfl
    rw [hd6] at hpre
    have htt : t' = t := by
      obtain ⟨r', hr'⟩ := hpre
      have h1 := decodeHeader_prefix env.dict hin' r'
      rw [hr', decodeHeader_prefix env.dict hin rest, ht, hreg] at h1
      cases h1
      rfl
    subst htt
    refine ⟨hname, raw, post, bss, ?_, hbb, hbl⟩
    rw [← hdrop, Nat.add_assoc]
    have e := List.drop_drop (i := freqBytes t'.freq + off.toNat) (j := 6) (l := flags :: (idBytes pid ++ [off] ++ (numPrefix f n ++ rest)))
    rw [hd6] at e
    exact e

/-- A registered number directly after the six header bytes, with one announced extra byte: the body is then read from the second byte on. -/
example : InClass .low 300 ∧ demoDeser.dict.getTemplateByPair .low 300 = some demoTemplate ∧
    (∃ m, (deserialize demoDeser {} (0x40 :: (idBytes 9 ++ [1] ++ (numPrefix .low 300 ++ [170, 77, 0, 0, 0, 3, 104, 105, 0, 2, 1, 0, 2, 0])))).1 =
      .ok (some m) ∧ decide (m.name = "Demo") = true) := by
  exact ⟨by decide, by decide +kernel, of_okSome (by decide +kernel)⟩

/-! ## C58: appended acks and message content -/

/-- **C58, short bodies:** a body that is too short is completed from the appended acks: the text of the message is read from the
bytes of the ack id. -/
theorem C58_acks_read_as_content :
    ∃ m', (deserialize demoDeser {} ([0x50, 0, 0, 0, 9, 0, 0xff, 0xff, 1, 44, 77, 0, 0, 0] ++ [1, 65, 0, 0, 1])).1 = .ok (some m') ∧
      m'.acks = [0x00004101] ∧ (m'.getBlock "Head").map (List.map (fun b => b.getItem "Name")) = .ok [.ok (.str [65])] := by
  obtain ⟨m, hm, h⟩ := of_okSome
    (x := (deserialize demoDeser {} ([0x50, 0, 0, 0, 9, 0, 0xff, 0xff, 1, 44, 77, 0, 0, 0] ++ [1, 65, 0, 0, 1])).1)
    (p := fun m => decide (m.acks = [0x00004101] ∧
      (m.getBlock "Head").map (List.map (fun b => b.getItem "Name")) = .ok [.ok (.str [65])])) (by decide +kernel)
  exact ⟨m, hm, of_decide_eq_true h⟩

theorem slice_change_head {f f' : UInt8} {r x : Bytes} {i j : Nat} (hi : 0 < i) (hj : j ≤ r.length + 1) :
    slice (f :: r) i j = slice (f' :: r ++ x) i j := by
  obtain ⟨k, rfl⟩ : ∃ k, i = k + 1 := ⟨i - 1, by omega⟩
  unfold slice
  simp only [List.drop_succ_cons, List.cons_append]
  rcases Nat.lt_or_ge j (k + 1) with h | h
  · rw [show j - (k + 1) = 0 by omega]; simp
  · rw [List.drop_append_of_le_length (by omega), List.take_append_of_le_length (by simp; omega)]

/-- **C58.** If the body is complete without the appended acks, they are not read as content: appending acks (with
the flag that announces them) to any datagram that gives a message gives the same message, with those acks. -/
theorem C58_complete_body (env : DeserEnv) (hc : Configured env) (st : DeserState) (f : UInt8) (rest : Bytes) (m : Message)
    (hflag : f.toNat &&& 0x10 = 0) (h : (deserialize env st (f :: rest)).1 = .ok (some m))
    (f' : UInt8) (hf' : f'.toNat = f.toNat ||| 0x10) (acks : List Nat) (hn : acks.length ≤ 255) (ha : ∀ a ∈ acks, a < 2 ^ 32) :
    ∃ m', (deserialize env st (f' :: rest ++ ackTrailer f' acks)).1 = .ok (some m') ∧ m'.blocks = m.blocks ∧ m'.name = m.name ∧
      m'.packetId = m.packetId ∧ m'.reliable = m.reliable ∧ m'.acks = acks := by
  have hbit : ∀ k, k &&& 0x10 = 0 → f'.toNat &&& k = f.toNat &&& k := by
    intro k hk; rw [hf', Nat.and_or_distrib_right, Nat.and_comm 16 k, hk, Nat.or_zero]
  have hack' : f'.toNat &&& 0x10 ≠ 0 := by rw [hf', Nat.and_or_distrib_right]; simp [hflag]
  obtain ⟨buf, a0, buf', t, hs, he, hlen, hdh, hv, hw, hdd⟩ := deserialize_inv h
  have hs0 : stripAcks (f :: rest) = .ok (f :: rest, []) := by
    simp [stripAcks, index, ok_bind, show flagAck = 0x10 from rfl, hflag]
  rw [hs0] at hs
  simp only [Except.ok.injEq, Prod.mk.injEq] at hs
  obtain ⟨rfl, rfl⟩ := hs
  obtain ⟨r', rfl, he'⟩ : ∃ r', buf' = f :: r' ∧ expandPacket (f' :: rest) = .ok (f' :: r') := by
    simp only [expandPacket, index, List.getElem?_cons_zero, ok_bind] at he ⊢
    rw [hbit flagZeroCode (by decide)]
    split at he
    · rename_i hz
      simp only [hz, ne_eq, not_false_eq_true, if_true]
      simp only [bind_ok] at he
      obtain ⟨o, ho, he⟩ := he
      simp only [Except.ok.injEq] at he
      rw [show 6 + o.toNat = (5 + o.toNat) + 1 by omega] at he
      simp only [List.take_succ_cons, List.drop_succ_cons, List.cons_append] at he
      refine ⟨_, he.symm, ?_⟩
      simp only [List.getElem?_cons_succ] at ho ⊢
      rw [ho, ok_bind]
      rw [show 6 + o.toNat = (5 + o.toNat) + 1 by omega]
      simp only [List.take_succ_cons, List.drop_succ_cons, List.cons_append]
    · rename_i hz
      simp only [hz, if_false]
      cases he
      exact ⟨rest, rfl, rfl⟩
  obtain ⟨fl, pid, off, pos', m₁, hfl, hpid, hoff, hap, hbl, hne, hacks, hname, hflags, hpk, hrel⟩ := decodeData_inv hdd
  simp only [List.append_nil] at hfl hpid hoff hap hbl
  simp only [List.getElem?_cons_zero, Option.some.injEq] at hfl
  subst hfl
  simp only [List.length_cons] at hlen
  have hm1 : m₁ = { name := t.name, sendFlags := f.toNat, packetId := pid.toNat } := by
    simp only [decodeAckPart, show flagAck = 0x10 from rfl, hflag, ne_eq, not_true_eq_false, if_false, Except.ok.injEq] at hap
    exact hap.symm
  subst hm1
  have hslice : ∀ i j, 0 < i → j ≤ 6 → slice (f :: r') i j = slice (f' :: r' ++ ackTrailer f' acks) i j :=
    fun i j hi hj => slice_change_head hi (by omega)
  have hpid' : unpackInt env.rt (f' :: r' ++ ackTrailer f' acks) .u32 1 (some .big) = .ok pid := by
    rw [← hpid]; unfold unpackInt unpackData selectBytes
    simp only [sizeof]
    rw [hslice 1 5 (by omega) (by omega)]
  have hoff' : unpackInt env.rt (f' :: r' ++ ackTrailer f' acks) .u8 5 = .ok off := by
    rw [← hoff]; unfold unpackInt unpackData selectBytes
    simp only [sizeof]
    rw [hslice 5 6 (by omega) (by omega)]
  have hap' := decodeAckPart_ok env.rt (f' :: r') f' acks hn ha (fun h => absurd h hack')
    { name := t.name, sendFlags := f'.toNat, packetId := pid.toNat } rfl rfl rfl
  have hwf : ∀ tb ∈ t.blocks, ∀ v ∈ tb.vars, WFVar v := by
    simp only [decodeHeader, bind_ok, Except.ok.injEq] at hdh
    obtain ⟨f, _, n, _, hp⟩ := hdh
    exact hc.templates _ _ _ hp
  obtain ⟨raw, post, bss, hdrop, hp', hbb, hblocks⟩ := decodeBlocks_inv hbl
  have hbl' : ∃ p, decodeBlocks env.rt (f' :: r' ++ ackTrailer f' acks) t.blocks (6 + freqBytes t.freq + off.toNat) [] =
      .ok (m.blocks, p) := by
    have hk : 6 + freqBytes t.freq + off.toNat = (5 + freqBytes t.freq + off.toNat) + 1 := by omega
    generalize 5 + freqBytes t.freq + off.toNat = k at hk
    rw [hk] at hdrop ⊢
    rw [List.drop_succ_cons] at hdrop
    rcases Nat.lt_or_ge r'.length k with hc | hc
    · rw [List.drop_eq_nil_of_le (by omega)] at hdrop
      obtain ⟨rfl, rfl⟩ := List.append_eq_nil_iff.mp hdrop.symm
      refine ⟨k + 1, ?_⟩
      rw [hblocks]
      exact decodeBlocks_at hwf (raw := []) (post := (f' :: r' ++ ackTrailer f' acks).drop (k + 1)) rfl hbb
    · refine ⟨k + 1 + raw.length, ?_⟩
      rw [hblocks]
      refine decodeBlocks_at hwf (raw := raw) (post := post ++ ackTrailer f' acks) ?_ hbb
      rw [List.cons_append, List.drop_succ_cons, List.drop_append_of_le_length hc, hdrop, List.append_assoc]
  obtain ⟨p, hbl'⟩ := hbl'
  have hempty : ¬ (m.blocks.length = 0 ∧ 0 < t.blocks.length) := by
    rintro ⟨h1, h2⟩
    rw [hne (List.eq_nil_of_length_eq_zero h1)] at h2
    simp at h2
  have hrel' : m.reliable = decide (f.toNat &&& flagReliable ≠ 0) := by rw [hrel]; simp
  have hfr := hbit flagReliable (by decide)
  have hdt : decodeTemplate env st (f' :: r') = (.ok true, { st with currentTemplate := some t }) := by
    have : slice (f' :: r') 6 12 = slice (f :: r') 6 12 := rfl
    unfold decodeTemplate
    rw [if_neg (by simp only [List.length_cons]; omega), this, hdh]; rfl
  have hfin : (deserialize env st (f' :: rest ++ ackTrailer f' acks)).1 =
      runDecode env.rt (some t) (f' :: r' ++ ackTrailer f' acks) := by
    simp only [deserialize, stripAcks_ok f' rest acks hn, he', deserializeRest, hdt, currentName, ok_bind, hv, hw,
      Bool.not_true, Bool.false_eq_true, if_false, if_true]
  refine ⟨received t f' pid.toNat acks m.blocks, ?_, rfl, hname.symm, hpk.symm, by rw [hrel', ← hfr]; rfl, rfl⟩
  have hdd' : decodeData env.rt (some t) (f' :: r' ++ ackTrailer f' acks) = .ok (received t f' pid.toNat acks m.blocks) := by
    have hi0 : index (f' :: r' ++ ackTrailer f' acks) 0 = .ok f' := rfl
    simp only [decodeData, hi0, liftPy, ok_bind, hpid', hap', hoff']
    rw [hbl']
    simp only [ok_bind]
    rw [if_neg hempty]
    unfold received
    by_cases hr : f'.toNat &&& flagReliable = 0 <;> simp [hr]
  rw [hfin, runDecode, hdd']

example : (∃ m, (deserialize demoDeser {} [0x40, 0, 0, 0, 9, 0, 0xff, 0xff, 1, 44, 77, 0, 0, 0, 1, 65, 0]).1 = .ok (some m) ∧
      decide (m.name = "Demo") = true) ∧ (0x40 : UInt8).toNat &&& 0x10 = 0 ∧ (0x50 : UInt8).toNat = (0x40 : UInt8).toNat ||| 0x10 := by
  exact ⟨of_okSome (by decide +kernel), by decide, by decide⟩

end Pyogp
