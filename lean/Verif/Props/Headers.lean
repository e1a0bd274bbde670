import Verif.Spec.Header
import Verif.Proofs.Codec

/-! # C11: message-number prefixes -/

namespace Pyogp
open Spec

theorem messageId_eq (rt : Runtime) {f n} (h : InClass f n) : messageId rt f n = .ok (numPrefix f n) := by
  have pack8 : ∀ (en? : Option Endian), n < 256 → packData rt (.num (.int n)) .u8 en? = .ok [UInt8.ofNat n] := by
    intro en? hn
    have : packData rt (.num (.int n)) .u8 en? = structPack rt.ver (en?.getD .big) .B n := rfl
    rw [this]
    unfold structPack
    have hlo : IntFmt.B.lo ≤ (n : Int) ∧ (n : Int) < IntFmt.B.hi := by
      simp [IntFmt.lo, IntFmt.hi, IntFmt.signed, IntFmt.size]; omega
    simp only [if_pos hlo, IntFmt.size]
    have e : ((n : Int) % ((2 ^ (8 * 1) : Nat) : Int)).toNat = n := by
      rw [← Int.natCast_emod, Int.toNat_natCast]; exact Nat.mod_eq_of_lt hn
    rw [e]
    cases en?.getD .big <;> simp [Endian.order, leBytes, Nat.mod_eq_of_lt hn]
  cases f
  case high =>
    have : n < 255 := h
    simp only [messageId, numPrefix, pack8 _ (show n < 256 by omega)]
  case medium =>
    have : n < 255 := h
    simp only [messageId, numPrefix, pack8 _ (show n < 256 by omega)]; rfl
  case fixed =>
    have : n < 256 := h
    simp only [messageId, numPrefix, pack8 _ this]; rfl
  case low =>
    have hn : n < 0xff00 := h
    have : packData rt (.num (.int n)) .u16 (some .big) = .ok [UInt8.ofNat (n / 256), UInt8.ofNat (n % 256)] := by
      have : packData rt (.num (.int n)) .u16 (some .big) = structPack rt.ver .big .H n := rfl
      rw [this]
      unfold structPack
      have hlo : IntFmt.H.lo ≤ (n : Int) ∧ (n : Int) < IntFmt.H.hi := by
        simp [IntFmt.lo, IntFmt.hi, IntFmt.signed, IntFmt.size]; omega
      simp only [if_pos hlo, IntFmt.size]
      have e : ((n : Int) % ((2 ^ (8 * 2) : Nat) : Int)).toNat = n := by
        rw [← Int.natCast_emod, Int.toNat_natCast]; exact Nat.mod_eq_of_lt (by omega)
      rw [e]
      simp only [Endian.order, leBytes, List.reverse_cons, List.reverse_nil, List.nil_append, List.cons_append]
      rw [show n / 256 % 256 = n / 256 by omega]
    simp only [messageId, numPrefix, this]; rfl

theorem byteNe {n : Nat} (h : n < 255) : UInt8.ofNat n ≠ 0xff := by
  intro hc
  have := congrArg UInt8.toNat hc
  simp at this; omega

theorem unpack1 (n : Nat) (h : n < 256) : structUnpack .big .B [UInt8.ofNat n] = .ok (n : Int) := by
  have : (UInt8.ofNat n).toNat = n := by simp; omega
  simp [structUnpack, IntFmt.size, IntFmt.signed, Endian.order, leVal]; omega

/-- The prefix is read back as the pair, whatever follows. -/
theorem decodeHeader_prefix (dict : TemplateDict) {f n} (h : InClass f n) (rest : Bytes) :
    decodeHeader dict (numPrefix f n ++ rest) = .ok (dict.getTemplateByPair f n) := by
  cases f
  case high =>
    have hn : n < 255 := h
    have hf : decodeFrequency (numPrefix .high n ++ rest) = .ok .high := by
      simp [decodeFrequency, numPrefix, index, ok_bind, byteNe hn]
    simp only [decodeHeader, decodeNum, hf, ok_bind]
    simp only [numPrefix, slice, List.cons_append, List.nil_append, List.drop_zero, Nat.sub_zero, List.take_succ_cons,
      List.take_zero, unpack1 n (by omega), ok_bind, Int.toNat_natCast]
  case medium =>
    have hn : n < 255 := h
    have hf : decodeFrequency (numPrefix .medium n ++ rest) = .ok .medium := by
      simp [decodeFrequency, numPrefix, index, ok_bind, byteNe hn]
    simp only [decodeHeader, decodeNum, hf, ok_bind]
    simp only [numPrefix, slice, List.cons_append, List.nil_append, List.drop_succ_cons, List.drop_zero,
      Nat.reduceSub, List.take_succ_cons, List.take_zero, unpack1 n (by omega), ok_bind, Int.toNat_natCast]
  case fixed =>
    have hn : n < 256 := h
    have hf : decodeFrequency (numPrefix .fixed n ++ rest) = .ok .fixed := by
      simp [decodeFrequency, numPrefix, index, ok_bind]
    simp only [decodeHeader, decodeNum, hf, ok_bind]
    simp only [numPrefix, slice, List.cons_append, List.nil_append, List.drop_succ_cons, List.drop_zero,
      Nat.reduceSub, List.take_succ_cons, List.take_zero, unpack1 n hn, ok_bind, Int.toNat_natCast]
  case low =>
    have hn : n < 0xff00 := h
    have hf : decodeFrequency (numPrefix .low n ++ rest) = .ok .low := by
      have : UInt8.ofNat (n / 256) ≠ 0xff := byteNe (by omega)
      simp [decodeFrequency, numPrefix, index, ok_bind, this]
    have hu : structUnpack .big .H [UInt8.ofNat (n / 256), UInt8.ofNat (n % 256)] = .ok (n : Int) := by
      have h1 : (UInt8.ofNat (n / 256)).toNat = n / 256 := by simp; omega
      have h2 : (UInt8.ofNat (n % 256)).toNat = n % 256 := by simp
      simp [structUnpack, IntFmt.size, IntFmt.signed, Endian.order, leVal]; omega
    simp only [decodeHeader, decodeNum, hf, ok_bind]
    simp only [numPrefix, slice, List.cons_append, List.nil_append, List.drop_succ_cons, List.drop_zero,
      Nat.reduceSub, List.take_succ_cons, List.take_zero, hu, ok_bind, Int.toNat_natCast]

theorem numPrefix_length (f n) : (numPrefix f n).length = freqBytes f := by cases f <;> rfl

theorem numPrefix_pos (f n) : 0 < (numPrefix f n).length := by
  rw [numPrefix_length]; cases f <;> decide

/-- **C11.** For every number of a frequency class: the id bytes built for it are the prefix of the message format,
as long as what the deserializer skips for that class, and in any datagram that has it at the standard place (after
the 6 header bytes) it is resolved to the template registered under that frequency and number, whatever follows. -/
theorem C11_prefix_identifies_template (env : DeserEnv) (st : DeserState) (f : Frequency) (n : Nat)
    (h : InClass f n) (header : Bytes) (hh : header.length = 6) (rest : Bytes) :
    messageId env.rt f n = .ok (numPrefix f n) ∧
    (numPrefix f n).length = freqBytes f ∧
    decodeTemplate env st (header ++ numPrefix f n ++ rest) =
      (.ok (env.dict.getTemplateByPair f n).isSome, { st with currentTemplate := env.dict.getTemplateByPair f n }) := by
  refine ⟨messageId_eq env.rt h, numPrefix_length f n, ?_⟩
  have hp := numPrefix_pos f n
  have hs : slice (header ++ numPrefix f n ++ rest) 6 12 = numPrefix f n ++ rest.take (6 - (numPrefix f n).length) := by
    have hlen : (numPrefix f n).length ≤ 6 := by rw [numPrefix_length]; cases f <;> decide
    simp only [slice, List.append_assoc]
    rw [show (6 : Nat) = header.length from hh.symm, List.drop_left, List.take_append]
    rw [hh]
    rw [List.take_of_length_le (by omega)]
  simp only [decodeTemplate]
  rw [if_neg (by simp only [List.length_append]; omega), hs, decodeHeader_prefix env.dict h]

/-- **C11.** Prefixes of distinct pairs are never confused: no datagram body starts with both. -/
theorem C11_prefixes_distinct (f f' : Frequency) (n n' : Nat) (h : InClass f n) (h' : InClass f' n')
    (rest rest' : Bytes) (heq : numPrefix f n ++ rest = numPrefix f' n' ++ rest') : f = f' ∧ n = n' := by
  -- the one-template dictionary for `(f, n)` resolves the bytes to it
  let t : Template := { name := "", freq := f, msgNum := n, blocks := [] }
  let d : TemplateDict := { byName := [], byPair := [((f, n), t)] }
  have h1 := decodeHeader_prefix d h rest
  have h2 := decodeHeader_prefix d h' rest'
  rw [heq, h2] at h1
  have h3 : d.getTemplateByPair f n = some t := by simp [d, TemplateDict.getTemplateByPair, Dict.get?]
  rw [h3] at h1
  have h4 : d.getTemplateByPair f' n' = some t := Except.ok.inj h1
  simp only [d, TemplateDict.getTemplateByPair, Dict.get?] at h4
  split at h4
  · rename_i he
    exact ⟨congrArg Prod.fst he, congrArg Prod.snd he⟩
  · cases h4

example : InClass .high 254 ∧ InClass .medium 254 ∧ InClass .low 0xfeff ∧ InClass .fixed 255 := by decide

/-- The bounds are sharp: High number 255 would be read as another class, and so would Low number 0xFF00. -/
theorem C11_bounds_sharp :
    decodeFrequency (numPrefix .high 255 ++ [1, 0]) = .ok .medium ∧
    decodeFrequency (numPrefix .low 0xff00) = .ok .fixed := by
  constructor <;> decide +kernel

end Pyogp
