import Verif.Proofs.Codec
import Verif.Props.Headers
import Verif.Props.ZeroCoding

/-! # Receiving a datagram of a peer -/

namespace Pyogp
open Spec

theorem idBytes_length (p) : (idBytes p).length = 4 := rfl
theorem ackBytes_length (p) : (ackBytes p).length = 4 := rfl
theorem ackBytes_reverse (p) : (ackBytes p).reverse = idBytes p := rfl

theorem ackBytes_eq (p : Nat) : ackBytes p = leBytes 4 p := by
  simp only [ackBytes, leBytes, Nat.div_div_eq_div_mul]
  have : ∀ n, UInt8.ofNat (n % 256) = UInt8.ofNat n := fun n => by
    apply UInt8.toNat_inj.mp; simp
  simp only [this, Nat.reducePow, Nat.reduceMul]

theorem structUnpack_ack {p : Nat} (h : p < 2 ^ 32) : structUnpack .little .I (ackBytes p) = .ok (p : Int) := by
  have : leVal (ackBytes p) = p := by rw [ackBytes_eq, leVal_leBytes]; exact Nat.mod_eq_of_lt (by simpa using h)
  simp [structUnpack, IntFmt.size, IntFmt.signed, Endian.order, this, ackBytes_length]

theorem structUnpack_id {p : Nat} (h : p < 2 ^ 32) : structUnpack .big .I (idBytes p) = .ok (p : Int) := by
  have : leVal (idBytes p).reverse = p := by
    rw [← ackBytes_reverse, List.reverse_reverse, ackBytes_eq, leVal_leBytes]; exact Nat.mod_eq_of_lt (by simpa using h)
  simp [structUnpack, IntFmt.size, IntFmt.signed, Endian.order, this, idBytes_length]

theorem unpackInt_ack (rt : Runtime) {p : Nat} (h : p < 2 ^ 32) (pre post : Bytes) :
    unpackInt rt (pre ++ ackBytes p ++ post) .u32 pre.length = .ok (p : Int) := by
  have hsel : selectBytes (pre ++ ackBytes p ++ post) .u32 (some pre.length) none = ackBytes p :=
    slice_append pre _ post 4 rfl
  simp only [unpackInt, unpackData, unpackerTable, hsel, Option.getD_none, Codec.unpack, structUnpack_ack h]; rfl

theorem decodeAcks_ok (rt : Runtime) (post : Bytes) : ∀ (acks : List Nat) (pre : Bytes) (m : Message),
    (∀ a ∈ acks, a < 2 ^ 32) →
    decodeAcks rt (pre ++ acks.flatMap ackBytes ++ post) acks.length pre.length m =
      .ok { m with acks := m.acks ++ acks, numAcks := m.numAcks + acks.length }
  | [], pre, m, _ => by simp [decodeAcks]
  | a :: acks, pre, m, h => by
    have e1 : pre ++ (a :: acks).flatMap ackBytes ++ post = pre ++ ackBytes a ++ (acks.flatMap ackBytes ++ post) := by
      simp
    have e2 : pre ++ ackBytes a ++ (acks.flatMap ackBytes ++ post) = (pre ++ ackBytes a) ++ acks.flatMap ackBytes ++ post := by
      simp
    have h1 := unpackInt_ack rt (h a List.mem_cons_self) pre (acks.flatMap ackBytes ++ post)
    have h2 := decodeAcks_ok rt post acks (pre ++ ackBytes a) (m.addAck a) (fun a ha => h a (List.mem_cons_of_mem _ ha))
    simp only [List.length_cons, decodeAcks]
    rw [e1, h1]
    simp only [liftPy, ok_bind, Int.toNat_natCast]
    rw [e2, show pre.length + 4 = (pre ++ ackBytes a).length by simp [ackBytes_length], h2]
    simp [Message.addAck]; omega

/-- Length of the ids in the trailer. -/
theorem acks_length (acks : List Nat) : (acks.flatMap ackBytes).length = 4 * acks.length := by
  induction acks with
  | nil => rfl
  | cons a as ih => simp only [List.flatMap_cons, List.length_append, ih, ackBytes_length, List.length_cons]; omega

theorem stripAcks_ok (flags : UInt8) (mid : Bytes) (acks : List Nat) (hn : acks.length ≤ 255) :
    stripAcks (flags :: mid ++ ackTrailer flags acks) = .ok (flags :: mid, ackTrailer flags acks) := by
  unfold stripAcks ackTrailer
  rw [show flagAck = 0x10 from rfl]
  simp only [index, List.cons_append, List.getElem?_cons_zero, ok_bind]
  split
  · have hlast : (flags :: (mid ++ (acks.flatMap ackBytes ++ [UInt8.ofNat acks.length])))[
        (flags :: (mid ++ (acks.flatMap ackBytes ++ [UInt8.ofNat acks.length]))).length - 1]? =
        some (UInt8.ofNat acks.length) := by
      rw [← List.getLast?_eq_getElem?]
      rw [show flags :: (mid ++ (acks.flatMap ackBytes ++ [UInt8.ofNat acks.length])) =
        (flags :: (mid ++ acks.flatMap ackBytes)) ++ [UInt8.ofNat acks.length] by simp]
      exact List.getLast?_concat
    rw [hlast]
    simp only [ok_bind]
    have hto : (UInt8.ofNat acks.length).toNat = acks.length := by simp; omega
    rw [hto]
    have hlen : (acks.flatMap ackBytes ++ [UInt8.ofNat acks.length]).length = 1 + 4 * acks.length := by
      rw [List.length_append, acks_length]; simp; omega
    generalize acks.flatMap ackBytes ++ [UInt8.ofNat acks.length] = T at *
    have e : flags :: (mid ++ T) = (flags :: mid) ++ T := rfl
    simp only [dropLastN, lastN, e]
    rw [List.length_append, hlen, Nat.add_sub_cancel, List.take_left, List.drop_left]
  · simp

theorem expandPacket_ok (flags : UInt8) (pid : Nat) {payload e : Bytes} (h : Encoded flags payload e) :
    expandPacket (flags :: (idBytes pid ++ [0] ++ e)) = .ok (flags :: (idBytes pid ++ [0] ++ payload)) := by
  unfold expandPacket Encoded at *
  rw [show flagZeroCode = 0x80 from rfl]
  simp only [index, List.getElem?_cons_zero, ok_bind]
  split
  · rename_i hz
    rw [if_pos hz] at h
    have : (flags :: (idBytes pid ++ [0] ++ e))[5]? = some 0 := by simp [idBytes]
    rw [this]
    simp only [ok_bind]
    have e6 : 6 + (0 : UInt8).toNat = (flags :: (idBytes pid ++ [0])).length := by simp [idBytes]
    have ec : flags :: (idBytes pid ++ [0] ++ e) = (flags :: (idBytes pid ++ [0])) ++ e := rfl
    rw [e6, ec, List.take_left, List.drop_left, C09_zero_decode_encode _ _ h]
    rfl
  · rename_i hz
    rw [if_neg hz] at h
    rw [h]

theorem decodeAckPart_ok (rt : Runtime) (mid : Bytes) (flags : UInt8) (acks : List Nat) (hn : acks.length ≤ 255)
    (ha : ∀ a ∈ acks, a < 2 ^ 32) (h0 : flags.toNat &&& flagAck = 0 → acks = []) (m : Message)
    (hm : m.sendFlags = flags.toNat) (hm1 : m.acks = []) (hm2 : m.numAcks = 0) :
    decodeAckPart rt (mid ++ ackTrailer flags acks) m = .ok { m with acks := acks, numAcks := acks.length } := by
  unfold decodeAckPart ackTrailer
  rw [hm, show flagAck = 0x10 from rfl]
  split
  · rename_i hf
    have hlen := acks_length acks
    have hu : unpackInt rt (mid ++ (acks.flatMap ackBytes ++ [UInt8.ofNat acks.length])) .u8
        ((mid ++ (acks.flatMap ackBytes ++ [UInt8.ofNat acks.length])).length - 1) = .ok (acks.length : Int) := by
      have e1 : (mid ++ (acks.flatMap ackBytes ++ [UInt8.ofNat acks.length])).length - 1 =
          (mid ++ acks.flatMap ackBytes).length := by simp
      have e2 : mid ++ (acks.flatMap ackBytes ++ [UInt8.ofNat acks.length]) =
          (mid ++ acks.flatMap ackBytes) ++ [UInt8.ofNat acks.length] ++ [] := by simp
      rw [e1, e2]
      have hsel : selectBytes ((mid ++ acks.flatMap ackBytes) ++ [UInt8.ofNat acks.length] ++ []) .u8
          (some (mid ++ acks.flatMap ackBytes).length) none = [UInt8.ofNat acks.length] := slice_append _ _ _ 1 rfl
      simp only [unpackInt, unpackData, unpackerTable, hsel, Option.getD_none, Codec.unpack,
        unpack1 acks.length (by omega)]; rfl
    rw [hu]
    simp only [liftPy, ok_bind, Int.toNat_natCast]
    have hl : (mid ++ (acks.flatMap ackBytes ++ [UInt8.ofNat acks.length])).length - 1 = mid.length + 4 * acks.length := by
      simp only [List.length_append, hlen, List.length_singleton]; omega
    rw [hl]
    have hs : sliceFrom (mid ++ (acks.flatMap ackBytes ++ [UInt8.ofNat acks.length]))
        (((mid.length + 4 * acks.length : Nat) : Int) - ((acks.length * 4 : Nat) : Int)) =
        acks.flatMap ackBytes ++ [UInt8.ofNat acks.length] := by
      have : (((mid.length + 4 * acks.length : Nat) : Int) - ((acks.length * 4 : Nat) : Int)) = (mid.length : Int) := by
        omega
      rw [this]
      simp [sliceFrom]
    rw [hs]
    have := decodeAcks_ok rt [UInt8.ofNat acks.length] acks [] m ha
    simp only [List.nil_append, List.length_nil] at this
    rw [this, hm1, hm2]
    simp [hm]
  · rename_i hf
    have : acks = [] := h0 (by simpa [flagAck] using hf)
    subst this
    cases m; simp_all

theorem bit_of_ne {f : UInt8} {k : Nat} : (f.toNat &&& k ≠ 0) ↔ ¬ (f.toNat &&& k = 0) := Iff.rfl

/-- The message object the receiver builds. -/
def received (t : Template) (flags : UInt8) (pid : Nat) (acks : List Nat) (blocks : Dict String (List BlockData)) :
    Message :=
  { name := t.name, sendFlags := flags.toNat, packetId := pid, acks := acks, numAcks := acks.length,
    reliable := decide (flags.toNat &&& flagReliable ≠ 0), blocks := blocks }

theorem decodeData_ok (rt : Runtime) (t : Template) (flags : UInt8) (pid : Nat) (hp : pid < 2 ^ 32) (acks : List Nat)
    (hn : acks.length ≤ 255) (ha : ∀ a ∈ acks, a < 2 ^ 32) (h0 : flags.toNat &&& flagAck = 0 → acks = [])
    (pfx body extra : Bytes) (hpf : pfx.length = freqBytes t.freq) {blocks : Dict String (List BlockData)}
    (hd : ∀ pre post, ∃ pos, decodeBlocks rt (pre ++ body ++ post) t.blocks pre.length [] = .ok (blocks, pos))
    (hne : t.blocks = [] ∨ blocks ≠ []) :
    decodeData rt (some t) ((flags :: (idBytes pid ++ [0] ++ (pfx ++ body ++ extra))) ++ ackTrailer flags acks) =
      .ok (received t flags pid acks blocks) := by
  have hD : (flags :: (idBytes pid ++ [0] ++ (pfx ++ body ++ extra))) ++ ackTrailer flags acks =
      [flags] ++ idBytes pid ++ ([0] ++ (pfx ++ body ++ extra) ++ ackTrailer flags acks) := by simp
  have hD2 : (flags :: (idBytes pid ++ [0] ++ (pfx ++ body ++ extra))) ++ ackTrailer flags acks =
      ([flags] ++ idBytes pid) ++ [UInt8.ofNat 0] ++ ((pfx ++ body ++ extra) ++ ackTrailer flags acks) := by simp
  have hD3 : (flags :: (idBytes pid ++ [0] ++ (pfx ++ body ++ extra))) ++ ackTrailer flags acks =
      ([flags] ++ idBytes pid ++ [0] ++ pfx) ++ body ++ (extra ++ ackTrailer flags acks) := by simp
  have hi0 : index ((flags :: (idBytes pid ++ [0] ++ (pfx ++ body ++ extra))) ++ ackTrailer flags acks) 0 = .ok flags := rfl
  have hpid : unpackInt rt ((flags :: (idBytes pid ++ [0] ++ (pfx ++ body ++ extra))) ++ ackTrailer flags acks) .u32 1
      (some .big) = .ok (pid : Int) := by
    have hsel : selectBytes ((flags :: (idBytes pid ++ [0] ++ (pfx ++ body ++ extra))) ++ ackTrailer flags acks) .u32
        (some 1) none = idBytes pid := by
      rw [hD]; exact slice_append [flags] _ _ 4 rfl
    simp only [unpackInt, unpackData, unpackerTable, hsel, Option.getD_some, Codec.unpack, structUnpack_id hp]; rfl
  have hoff : unpackInt rt ((flags :: (idBytes pid ++ [0] ++ (pfx ++ body ++ extra))) ++ ackTrailer flags acks) .u8 5 =
      .ok (0 : Int) := by
    have hsel : selectBytes ((flags :: (idBytes pid ++ [0] ++ (pfx ++ body ++ extra))) ++ ackTrailer flags acks) .u8
        (some 5) none = [UInt8.ofNat 0] := by
      rw [hD2]; exact slice_append ([flags] ++ idBytes pid) _ _ 1 rfl
    simp only [unpackInt, unpackData, unpackerTable, hsel, Option.getD_none, Codec.unpack, unpack1 0 (by omega)]; rfl
  have hack := decodeAckPart_ok rt (flags :: (idBytes pid ++ [0] ++ (pfx ++ body ++ extra))) flags acks hn ha h0
    { name := t.name, sendFlags := flags.toNat, packetId := pid } rfl rfl rfl
  obtain ⟨pos, hb⟩ := hd ([flags] ++ idBytes pid ++ [0] ++ pfx) (extra ++ ackTrailer flags acks)
  have hlen : ([flags] ++ idBytes pid ++ [0] ++ pfx).length = 6 + freqBytes t.freq + (0 : Int).toNat := by
    simp only [List.length_append, hpf, idBytes_length, List.length_singleton]; simp
  rw [← hD3, hlen] at hb
  have hempty : ¬ (blocks.length = 0 ∧ 0 < t.blocks.length) := by
    rintro ⟨h1, h2⟩
    rcases hne with h | h
    · rw [h] at h2; simp at h2
    · exact h (List.eq_nil_of_length_eq_zero h1)
  generalize (flags :: (idBytes pid ++ [0] ++ (pfx ++ body ++ extra))) ++ ackTrailer flags acks = D at *
  simp only [decodeData, hi0, liftPy, ok_bind, hpid, Int.toNat_natCast, hack, hoff]
  rw [hb]
  simp only [ok_bind]
  rw [if_neg hempty]
  unfold received
  by_cases hr : flags.toNat &&& flagReliable = 0 <;> simp [hr]

/-- Receiving a well-formed datagram of template `t`. -/
theorem deserialize_ok (env : DeserEnv) (st : DeserState) (t : Template) (hwf : WFTemplate t)
    (hreg : env.dict.getTemplateByPair t.freq t.msgNum = some t) (hxml : validateUdpMsg env.xml t.name = .ok true)
    (hwant : wantsParse env t.name = .ok true) (flags : UInt8) (pid : Nat) (hp : pid < 2 ^ 32) (acks : List Nat)
    (hn : acks.length ≤ 255) (ha : ∀ a ∈ acks, a < 2 ^ 32) (h0 : flags.toNat &&& flagAck = 0 → acks = [])
    (body extra e : Bytes) (he : Encoded flags (t.msgNumHex ++ body ++ extra) e) {blocks : Dict String (List BlockData)}
    (hd : ∀ pre post, ∃ pos, decodeBlocks env.rt (pre ++ body ++ post) t.blocks pre.length [] = .ok (blocks, pos))
    (hne : t.blocks = [] ∨ blocks ≠ []) :
    deserialize env st (flags :: (idBytes pid ++ [0] ++ e) ++ ackTrailer flags acks) =
      (.ok (some (received t flags pid acks blocks)), { st with currentTemplate := some t }) := by
  rw [hwf.hex] at he
  have hs := stripAcks_ok flags (idBytes pid ++ [0] ++ e) acks hn
  have hx := expandPacket_ok flags pid he
  have hdt := (C11_prefix_identifies_template env st t.freq t.msgNum hwf.inClass (flags :: (idBytes pid ++ [0])) rfl
    (body ++ extra)).2.2
  rw [hreg] at hdt
  have e1 : flags :: (idBytes pid ++ [0]) ++ numPrefix t.freq t.msgNum ++ (body ++ extra) =
      flags :: (idBytes pid ++ [0] ++ (numPrefix t.freq t.msgNum ++ body ++ extra)) := by simp
  rw [e1] at hdt
  have hdd := decodeData_ok env.rt t flags pid hp acks hn ha h0 (numPrefix t.freq t.msgNum) body extra
    (numPrefix_length _ _) hd hne
  simp only [deserialize, hs, hx, deserializeRest, hdt, Option.isSome_some]
  simp only [currentName, hxml, ok_bind, hwant, Bool.not_true, if_true]
  simp only [runDecode, hdd]
  rfl

end Pyogp
