import Verif.Proofs.HeaderTotal
import Verif.Proofs.Parse
import Verif.Proofs.Transmit

namespace Pyogp
open Spec

theorem idBytes_inj {i j : Nat} (hi : i < 2 ^ 32) (hj : j < 2 ^ 32) (h : idBytes i = idBytes j) : i = j := by
  have := congrArg (fun l => leVal l.reverse) h
  simp only [idBytes, List.reverse_cons, List.reverse_nil, List.nil_append, List.cons_append, leVal, UInt8.toNat_ofNat'] at this
  omega

/-- The packet id field of a datagram. -/
theorem unpackId (rt : Runtime) {d : Bytes} (h : 5 ≤ d.length) :
    ∃ p, p < 2 ^ 32 ∧ slice d 1 5 = idBytes p ∧ unpackInt rt d .u32 1 (some .big) = .ok (p : Int) := by
  have hl : (slice d 1 5).length = 4 := by unfold slice; simp; omega
  have hle : (slice d 1 5).reverse.length = 4 := by simpa using hl
  refine ⟨leVal (slice d 1 5).reverse, ?_, ?_, ?_⟩
  · have := leVal_lt (slice d 1 5).reverse
    rw [hle] at this
    exact Nat.lt_of_lt_of_eq this (by decide)
  · rw [← ackBytes_reverse, ackBytes_eq, leBytes_leVal_of_length hle, List.reverse_reverse]
  · have hsel : selectBytes d .u32 (some 1) none = slice d 1 5 := rfl
    simp only [unpackInt, unpackData, unpackerTable, hsel, Option.getD_some, Codec.unpack]
    simp [structUnpack, IntFmt.size, IntFmt.signed, Endian.order, hl]; rfl

theorem slice_eq_of_get {d d' : Bytes} (h : ∀ i, i < 5 → d[i]? = d'[i]?) : slice d 1 5 = slice d' 1 5 := by
  unfold slice
  apply List.ext_getElem?
  intro i
  simp only [List.getElem?_take, List.getElem?_drop]
  split
  · exact h _ (by omega)
  · rfl

/-- Zero-decoding does not touch the first six bytes, and does not make a short datagram long. -/
theorem expandPacket_head {buf buf' : Bytes} (h : expandPacket buf = .ok buf') (hlen : 6 < buf'.length) :
    6 < buf.length ∧ ∀ i, i < 6 → buf'[i]? = buf[i]? := by
  simp only [expandPacket, bind_ok] at h
  obtain ⟨b0, _, h⟩ := h
  split at h
  · simp only [bind_ok] at h
    obtain ⟨o, ho, h⟩ := h
    cases h
    have h6 : 6 ≤ buf.length := by
      unfold index at ho
      split at ho
      · rename_i hx; have := (List.getElem?_eq_some_iff.mp hx).1; omega
      · cases ho
    constructor
    · rcases Nat.lt_or_ge 6 buf.length with hc | hc
      · exact hc
      · rw [List.take_of_length_le (by omega), List.drop_eq_nil_of_le (by omega)] at hlen
        simp only [show zeroCodeExpand [] = [] from rfl, List.append_nil] at hlen
        exact hlen
    · intro i hi
      rw [List.getElem?_append_left (by simp; omega), List.getElem?_take_of_lt (by omega)]
  · cases h; exact ⟨hlen, fun _ _ => rfl⟩

theorem stripAcks_append {dg buf acks : Bytes} (h : stripAcks dg = .ok (buf, acks)) : dg = buf ++ acks := by
  simp only [stripAcks, bind_ok] at h
  obtain ⟨b0, _, h⟩ := h
  split at h
  · simp only [bind_ok, Except.ok.injEq, Prod.mk.injEq] at h
    obtain ⟨n, _, rfl, rfl⟩ := h
    simp [dropLastN, lastN]
  · cases h; simp

/-- A datagram that gives a message or `None` has more than six bytes. -/
theorem deserialize_long {env : DeserEnv} {st : DeserState} {dg : Bytes} {r : Option Message}
    (h : (deserialize env st dg).1 = .ok r) : 6 < dg.length := by
  unfold deserialize at h
  split at h
  · cases h
  · rename_i buf acks hs
    split at h
    · cases h
    · rename_i buf' he
      have hlen : 6 < buf'.length := by
        rcases Nat.lt_or_ge 6 buf'.length with hc | hc
        · exact hc
        · simp only [deserializeRest, decodeTemplate, hc, if_true] at h
          cases h
      have := (expandPacket_head he hlen).1
      rw [stripAcks_append hs, List.length_append]; omega

/-- The id of a received message is that of its header. -/
theorem deserialize_id {env : DeserEnv} {st : DeserState} {dg : Bytes} {m : Message}
    (h : (deserialize env st dg).1 = .ok (some m)) : slice dg 1 5 = idBytes m.packetId ∧ m.packetId < 2 ^ 32 := by
  obtain ⟨buf, acks, buf', t, hs, he, hlen, hdh, _, _, hdd⟩ := deserialize_inv h
  obtain ⟨hlb, hget⟩ := expandPacket_head he hlen
  obtain ⟨fl, pid, off, pos', m₁, hfl, hpid, hoff, hap, hbl, _, hacks, hname, hflags, hpk, hrel⟩ := decodeData_inv hdd
  obtain ⟨p, hp, hsl, hu⟩ := unpackId env.rt (d := buf' ++ acks) (by simp; omega)
  rw [hu] at hpid
  cases hpid
  have hid : m.packetId = p := by
    rw [hpk]
    unfold decodeAckPart at hap
    split at hap
    · simp only [bind_ok] at hap
      obtain ⟨n, _, hap⟩ := hap
      obtain ⟨ids, post, _, _, _, rfl⟩ := decodeAcks_inv hap
      simp
    · cases hap; simp
  rw [hid]
  refine ⟨?_, hp⟩
  rw [← hsl, stripAcks_append hs]
  apply slice_eq_of_get
  intro i hi
  rw [List.getElem?_append_left (by omega), List.getElem?_append_left (by omega), hget i (by omega)]

end Pyogp
