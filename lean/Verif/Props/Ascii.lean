import Verif.Model.Ascii
import Verif.Spec.Ascii

/-! # C100: `bytes_to_base64`, `bytes_to_ascii` -/

namespace Pyogp
open Spec

theorem b64Digit_char : ∀ n < 64, b64Digit (b64Char n) = some n ∧ b64Char n ≠ '=' ∧ b64Char n ≠ '\n' := by decide +kernel

theorem uuDigit_char : ∀ n < 64, uuDigit (uuChar n) = some n := by decide +kernel

theorem take8 (tbl : Nat → Char) (n : Nat) : takeSixes tbl n 8 = ([tbl (n / 4 % 64)], 2) := by
  rw [takeSixes, takeSixes]; simp
theorem take10 (tbl : Nat → Char) (n : Nat) : takeSixes tbl n 10 = ([tbl (n / 16 % 64)], 4) := by
  rw [takeSixes, takeSixes]; simp
theorem take12 (tbl : Nat → Char) (n : Nat) : takeSixes tbl n 12 = ([tbl (n / 64 % 64), tbl (n % 64)], 0) := by
  rw [takeSixes, takeSixes, takeSixes]; simp

theorem three_bytes (n : Nat) (a b c : UInt8) :
    ((n * 256 + a.toNat) / 4 % 64 = a.toNat / 4) ∧
    (((n * 256 + a.toNat) * 256 + b.toNat) / 16 % 64 = a.toNat % 4 * 16 + b.toNat / 16) ∧
    ((((n * 256 + a.toNat) * 256 + b.toNat) * 256 + c.toNat) / 64 % 64 = b.toNat % 16 * 4 + c.toNat / 64) ∧
    ((((n * 256 + a.toNat) * 256 + b.toNat) * 256 + c.toNat) % 64 = c.toNat % 64) := by
  have := a.toNat_lt; have := b.toNat_lt; have := c.toNat_lt
  refine ⟨?_, ?_, ?_, ?_⟩ <;> omega

/-- Three bytes give four characters. -/
theorem b64Loop_three (n : Nat) (a b c : UInt8) (l : Bytes) : ∃ n', b64Loop n 0 (a :: b :: c :: l) =
    b64Char (a.toNat / 4) :: b64Char (a.toNat % 4 * 16 + b.toNat / 16) :: b64Char (b.toNat % 16 * 4 + c.toNat / 64) :: b64Char (c.toNat % 64) ::
      b64Loop n' 0 l := by
  obtain ⟨h1, h2, h3, h4⟩ := three_bytes n a b c
  refine ⟨((n * 256 + a.toNat) * 256 + b.toNat) * 256 + c.toNat, ?_⟩
  simp only [b64Loop, Nat.zero_add, take8, Nat.reduceAdd, take10, take12, h1, h2, h3, h4, List.cons_append, List.nil_append]

theorem uuLoop_three (n : Nat) (a b c : UInt8) (l : Bytes) : ∃ n', uuLoop n 0 (a :: b :: c :: l) =
    uuChar (a.toNat / 4) :: uuChar (a.toNat % 4 * 16 + b.toNat / 16) :: uuChar (b.toNat % 16 * 4 + c.toNat / 64) :: uuChar (c.toNat % 64) ::
      uuLoop n' 0 l := by
  obtain ⟨h1, h2, h3, h4⟩ := three_bytes n a b c
  refine ⟨((n * 256 + a.toNat) * 256 + b.toNat) * 256 + c.toNat, ?_⟩
  simp only [uuLoop, Nat.zero_add, take8, Nat.reduceAdd, take10, take12, h1, h2, h3, h4, List.cons_append, List.nil_append]

theorem b64Decode_four {a b c d : Char} {l : List Char} (hd : d ≠ '=') : b64Decode (a :: b :: c :: d :: l) = (do
    let n := (((← b64Digit a) * 64 + (← b64Digit b)) * 64 + (← b64Digit c)) * 64 + (← b64Digit d)
    let r ← b64Decode l
    some (UInt8.ofNat (n / 65536) :: UInt8.ofNat (n / 256 % 256) :: UInt8.ofNat (n % 256) :: r)) := by
  rw [b64Decode]
  · intro _ h; exact absurd h hd
  · intro h; exact absurd h hd

theorem bytes_back (a b c : UInt8) :
    UInt8.ofNat ((((a.toNat / 4 * 64 + (a.toNat % 4 * 16 + b.toNat / 16)) * 64 + (b.toNat % 16 * 4 + c.toNat / 64)) * 64 + c.toNat % 64) / 65536) = a ∧
    UInt8.ofNat ((((a.toNat / 4 * 64 + (a.toNat % 4 * 16 + b.toNat / 16)) * 64 + (b.toNat % 16 * 4 + c.toNat / 64)) * 64 + c.toNat % 64) / 256 % 256) = b ∧
    UInt8.ofNat ((((a.toNat / 4 * 64 + (a.toNat % 4 * 16 + b.toNat / 16)) * 64 + (b.toNat % 16 * 4 + c.toNat / 64)) * 64 + c.toNat % 64) % 256) = c := by
  have := a.toNat_lt; have := b.toNat_lt; have := c.toNat_lt
  refine ⟨?_, ?_, ?_⟩ <;> (apply UInt8.toNat.inj; rw [UInt8.toNat_ofNat']; omega)

theorem b64_loop_decodes (data : Bytes) (n : Nat) : b64Decode (b64Loop n 0 data) = some data := by
  match data with
  | [] => simp [b64Loop, b64Decode]
  | [a] =>
    have := a.toNat_lt
    have h1 : (n * 256 + a.toNat) / 4 % 64 = a.toNat / 4 := by omega
    have h2 : (n * 256 + a.toNat) % 4 = a.toNat % 4 := by omega
    simp only [b64Loop, Nat.zero_add, take8, if_true, h1, h2, List.cons_append, List.nil_append]
    rw [b64Decode, (b64Digit_char _ (by omega)).1, (b64Digit_char _ (by omega)).1]
    simp only [bind, Option.bind, Option.some.injEq, List.cons.injEq, and_true]
    apply UInt8.toNat.inj
    rw [UInt8.toNat_ofNat']
    omega
  | [a, b] =>
    have := a.toNat_lt
    have := b.toNat_lt
    obtain ⟨h1, h2, -, -⟩ := three_bytes n a b 0
    have h3 : ((n * 256 + a.toNat) * 256 + b.toNat) % 16 = b.toNat % 16 := by omega
    simp only [b64Loop, Nat.zero_add, take8, Nat.reduceAdd, take10, h1, h2, h3, List.cons_append, List.nil_append, Nat.reduceEqDiff, if_false, if_true]
    rw [b64Decode]
    · rw [(b64Digit_char _ (by omega)).1, (b64Digit_char _ (by omega)).1, (b64Digit_char _ (by omega)).1]
      simp only [bind, Option.bind, Option.some.injEq, List.cons.injEq, and_true]
      constructor <;> (apply UInt8.toNat.inj; rw [UInt8.toNat_ofNat']; omega)
    · exact (b64Digit_char _ (by omega)).2.1
  | a :: b :: c :: l =>
    have := a.toNat_lt
    have := b.toNat_lt
    have := c.toNat_lt
    obtain ⟨n', e⟩ := b64Loop_three n a b c l
    have ih := b64_loop_decodes l n'
    rw [e, b64Decode_four (b64Digit_char _ (by omega)).2.1, (b64Digit_char _ (by omega)).1, (b64Digit_char _ (by omega)).1, (b64Digit_char _ (by omega)).1,
      (b64Digit_char _ (by omega)).1, ih]
    obtain ⟨e1, e2, e3⟩ := bytes_back a b c
    simp only [bind, Option.bind, e1, e2, e3]

theorem b64_loop_length (data : Bytes) (n : Nat) : (b64Loop n 0 data).length = (data.length + 2) / 3 * 4 ∧ '\n' ∉ b64Loop n 0 data := by
  match data with
  | [] => simp [b64Loop]
  | [a] =>
    have h1 := (b64Digit_char ((n * 256 + a.toNat) / 4 % 64) (by omega)).2.2
    have h2 := (b64Digit_char ((n * 256 + a.toNat) % 4 * 16) (by omega)).2.2
    simp only [b64Loop, Nat.zero_add, take8, if_true, List.cons_append, List.nil_append]
    simp [h1.symm, h2.symm]
  | [a, b] =>
    have h1 := (b64Digit_char ((n * 256 + a.toNat) / 4 % 64) (by omega)).2.2
    have h2 := (b64Digit_char (((n * 256 + a.toNat) * 256 + b.toNat) / 16 % 64) (by omega)).2.2
    have h3 := (b64Digit_char (((n * 256 + a.toNat) * 256 + b.toNat) % 16 * 4) (by omega)).2.2
    simp only [b64Loop, Nat.zero_add, take8, Nat.reduceAdd, take10, List.cons_append, List.nil_append, Nat.reduceEqDiff, if_false, if_true]
    simp [h1.symm, h2.symm, h3.symm]
  | a :: b :: c :: l =>
    have := a.toNat_lt
    have := b.toNat_lt
    have := c.toNat_lt
    obtain ⟨n', e⟩ := b64Loop_three n a b c l
    obtain ⟨i1, i2⟩ := b64_loop_length l n'
    have h1 := (b64Digit_char (a.toNat / 4) (by omega)).2.2
    have h2 := (b64Digit_char (a.toNat % 4 * 16 + b.toNat / 16) (by omega)).2.2
    have h3 := (b64Digit_char (b.toNat % 16 * 4 + c.toNat / 64) (by omega)).2.2
    have h4 := (b64Digit_char (c.toNat % 64) (by omega)).2.2
    rw [e]
    simp only [List.length_cons, i1, List.mem_cons, h1.symm, h2.symm, h3.symm, h4.symm, i2, or_self, not_false_eq_true, and_true]
    omega

theorem uuGroups_four {p q r s : Nat} (hp : p < 64) (hq : q < 64) (hr : r < 64) (hs : s < 64) {l : List Char} {b : Bytes} (h : uuGroups l = some b) :
    uuGroups (uuChar p :: uuChar q :: uuChar r :: uuChar s :: l) =
      some (UInt8.ofNat ((((p * 64 + q) * 64 + r) * 64 + s) / 65536) :: UInt8.ofNat ((((p * 64 + q) * 64 + r) * 64 + s) / 256 % 256) ::
        UInt8.ofNat ((((p * 64 + q) * 64 + r) * 64 + s) % 256) :: b) := by
  rw [uuGroups, uuDigit_char p hp, uuDigit_char q hq, uuDigit_char r hr, uuDigit_char s hs, h]
  rfl

theorem uu_loop_decodes (data : Bytes) (n : Nat) : ∃ z, uuGroups (uuLoop n 0 data) = some (data ++ z) ∧
    (uuLoop n 0 data).length = (data.length + 2) / 3 * 4 := by
  match data with
  | [] => exact ⟨[], by simp [uuLoop, uuPad, uuGroups], by simp [uuLoop, uuPad]⟩
  | [a] =>
    have := a.toNat_lt
    obtain ⟨h1, h2, h3, h4⟩ := three_bytes n a 0 0
    obtain ⟨e1, e2, e3⟩ := bytes_back a 0 0
    simp only [UInt8.toNat_zero, Nat.add_zero] at h1 h2 h3 h4 e1 e2 e3
    refine ⟨[0, 0], ?_, ?_⟩
    · simp only [uuLoop, uuPad, Nat.zero_add, take8, Nat.reduceAdd, take10, take12, List.cons_append, List.nil_append, Nat.reduceEqDiff, if_false, h1, h2, h3, h4]
      rw [uuGroups_four (by omega) (by omega) (by omega) (by omega) (b := []) (by simp [uuGroups]), e1, e2, e3]
    · simp only [uuLoop, uuPad, Nat.zero_add, take8, Nat.reduceAdd, take10, take12, List.cons_append, List.nil_append, Nat.reduceEqDiff, if_false]
      simp
  | [a, b] =>
    have := a.toNat_lt
    have := b.toNat_lt
    obtain ⟨h1, h2, h3, h4⟩ := three_bytes n a b 0
    obtain ⟨e1, e2, e3⟩ := bytes_back a b 0
    simp only [UInt8.toNat_zero, Nat.add_zero] at h1 h2 h3 h4 e1 e2 e3
    refine ⟨[0], ?_, ?_⟩
    · simp only [uuLoop, uuPad, Nat.zero_add, take8, Nat.reduceAdd, take10, take12, List.cons_append, List.nil_append, Nat.reduceEqDiff, if_false, h1, h2, h3, h4, if_true]
      rw [uuGroups_four (by omega) (by omega) (by omega) (by omega) (b := []) (by simp [uuGroups]), e1, e2, e3]
    · simp only [uuLoop, uuPad, Nat.zero_add, take8, Nat.reduceAdd, take10, take12, List.cons_append, List.nil_append, Nat.reduceEqDiff, if_false, if_true]
      simp
  | a :: b :: c :: l =>
    have := a.toNat_lt
    have := b.toNat_lt
    have := c.toNat_lt
    obtain ⟨n', e⟩ := uuLoop_three n a b c l
    obtain ⟨z, i1, i2⟩ := uu_loop_decodes l n'
    obtain ⟨e1, e2, e3⟩ := bytes_back a b c
    refine ⟨z, ?_, ?_⟩
    · rw [e, uuGroups_four (by omega) (by omega) (by omega) (by omega) i1, e1, e2, e3]
      rfl
    · rw [e]
      simp only [List.length_cons, i2]
      omega

/-- **C100.** `bytes_to_base64` is the base64 text of the data, followed by a newline. -/
theorem C100_base64 (data : Bytes) : ∃ text, bytesToBase64 data = text ++ ['\n'] ∧ b64Decode text = some data ∧ text.length = (data.length + 2) / 3 * 4 ∧ '\n' ∉ text := by
  exact ⟨b64Loop 0 0 data, rfl, b64_loop_decodes data 0, b64_loop_length data 0⟩

/-- **C100.** Different data give different text. -/
theorem C100_base64_injective {a b : Bytes} (h : bytesToBase64 a = bytesToBase64 b) : a = b := by
  have e := List.append_cancel_right h
  have := b64_loop_decodes a 0
  rw [e, b64_loop_decodes b 0] at this
  exact (Option.some.inj this).symm

/-- **C100.** `bytes_to_ascii` raises `binascii.Error` exactly for more than 45 bytes; otherwise its result is one line of uuencoded text for the data. -/
theorem C100_ascii (data : Bytes) :
    (45 < data.length → bytesToAscii data = none) ∧
    (data.length ≤ 45 → ∃ text, bytesToAscii data = some text ∧ uuDecodeLine text = some data ∧ text.length = (data.length + 2) / 3 * 4 + 2) := by
  unfold bytesToAscii
  refine ⟨fun h => if_pos h, fun h => ?_⟩
  rw [if_neg (by omega)]
  obtain ⟨z, h1, h2⟩ := uu_loop_decodes data 0
  refine ⟨_, rfl, ?_, by simp [h2]⟩
  unfold uuDecodeLine
  have hl : (uuChar data.length :: (uuLoop 0 0 data ++ ['\n'])).getLast? = some '\n' := by
    rw [show uuChar data.length :: (uuLoop 0 0 data ++ ['\n']) = (uuChar data.length :: uuLoop 0 0 data) ++ ['\n'] from rfl, List.getLast?_concat]
  simp only [hl, List.dropLast_concat, uuDigit_char _ (show data.length < 64 by omega), h1, bind, Option.bind]
  simp

example : bytesToBase64 [77, 97, 110, 7] = "TWFuBw==\n".toList ∧ bytesToAscii [67, 97, 116] = some "#0V%T\n".toList := by
  decide +kernel

end Pyogp
