import Verif.Proofs.Uuid
import Verif.Spec.Helpers

/-! # C06, C07: UUIDs -/

namespace Pyogp

open Spec

/-- **C06.** `UUID(bytes=u.get_bytes())`, `UUID(string=str(u))` and `u.copy()` are `u`; the 16 bytes may sit at any
offset of a longer string. -/
theorem C06_uuid_roundtrip (u : BitVec 128) :
    uuidNew (bytes := some (uuidGetBytes u)) = .ok u ∧
    (∀ pre post, uuidNew (bytes := some (pre ++ uuidGetBytes u ++ post)) (offset := pre.length) = .ok u) ∧
    uuidNew (string := uuidToString u) = .ok u ∧
    uuidCopy u = .ok u ∧
    (uuidGetBytes u).length = 16 := by
  refine ⟨?_, ?_, uuidOfString_uuidToString u, uuidOfString_uuidToString u, uuidBytes_length u⟩
  · simp only [uuidNew, uuidGetBytes]
    have := slice_append [] (uuidBytes u) [] 16 (uuidBytes_length u)
    simp only [List.nil_append, List.append_nil, List.length_nil] at this
    rw [this, uuidOfBytes_uuidBytes]
  · intro pre post
    simp only [uuidNew, uuidGetBytes]
    rw [slice_append pre _ post 16 (uuidBytes_length u), uuidOfBytes_uuidBytes]

/-- **C06.** Every 16-byte string is the byte form of exactly one UUID; a string with fewer than 16 bytes after the
offset is rejected with `ValueError`. -/
theorem C06_uuid_bytes (b : Bytes) (off : Nat) :
    (off + 16 ≤ b.length → ∃ u, uuidNew (bytes := some b) (offset := off) = .ok u ∧
      uuidGetBytes u = (b.drop off).take 16) ∧
    (b.length < off + 16 → uuidNew (bytes := some b) (offset := off) = .error .valueError) := by
  have hsl : slice b off (off + 16) = (b.drop off).take 16 := by simp [slice]
  constructor
  · intro h
    have hl : ((b.drop off).take 16).length = 16 := by simp; omega
    obtain ⟨u, h1, h2⟩ := uuidBytes_uuidOfBytes hl
    exact ⟨u, by simp only [uuidNew, hsl, h1], h2⟩
  · intro h
    simp only [uuidNew, hsl, uuidOfBytes]
    rw [if_neg (by simp; omega)]

/-- **C06.** `str(u)` is 36 characters: lower-case hexadecimal digits with dashes at positions 8, 13, 18 and 23. -/
theorem C06_uuid_string_shape (u : BitVec 128) :
    (uuidToString u).length = 36 ∧
    ∀ i c, (uuidToString u)[i]? = some c →
      (c = '-' ∧ (i = 8 ∨ i = 13 ∨ i = 18 ∨ i = 23)) ∨
      (isHexLower c ∧ ¬ (i = 8 ∨ i = 13 ∨ i = 18 ∨ i = 23)) := by
  have hh : ∀ c ∈ hexDigits 32 u.toNat, isHexLower c := fun c hc => hexDigits_isHex hc
  have hlen := hexDigits_length 32 u.toNat
  unfold uuidToString
  generalize hexDigits 32 u.toNat = H at *
  have hs : ∀ (i j k : Nat) (c : Char), (slice H i j)[k]? = some c → isHexLower c := by
    intro i j k c h
    exact hh c (List.mem_of_mem_drop (List.mem_of_mem_take (List.mem_of_getElem? h)))
  have hd : ∀ (k : Nat) (c : Char), (H.drop 20)[k]? = some c → isHexLower c := by
    intro k c h
    exact hh c (List.mem_of_mem_drop (List.mem_of_getElem? h))
  have l1 : (slice H 0 8).length = 8 := by simp [slice, hlen]
  have l2 : (slice H 8 12).length = 4 := by simp [slice, hlen]
  have l3 : (slice H 12 16).length = 4 := by simp [slice, hlen]
  have l4 : (slice H 16 20).length = 4 := by simp [slice, hlen]
  have l5 : (H.drop 20).length = 12 := by simp [hlen]
  have s1 := hs 0 8; have s2 := hs 8 12; have s3 := hs 12 16; have s4 := hs 16 20
  simp only
  generalize slice H 0 8 = A1 at *; generalize slice H 8 12 = A2 at *
  generalize slice H 12 16 = A3 at *; generalize slice H 16 20 = A4 at *
  generalize H.drop 20 = A5 at *
  refine ⟨by simp [l1, l2, l3, l4, l5], ?_⟩
  intro i c h
  simp only [List.append_assoc, List.getElem?_append, l1, l2, l3, l4, List.length_singleton] at h
  have single_get : ∀ k : Nat, (['-'] : List Char)[k]? = some c → k < 1 → c = '-' := by
    intro k hk hk1
    have : k = 0 := by omega
    subst this; simpa using hk.symm
  repeat' split at h
  · exact .inr ⟨s1 _ _ h, by omega⟩
  · exact .inl ⟨single_get _ h (by omega), by omega⟩
  · exact .inr ⟨s2 _ _ h, by omega⟩
  · exact .inl ⟨single_get _ h (by omega), by omega⟩
  · exact .inr ⟨s3 _ _ h, by omega⟩
  · exact .inl ⟨single_get _ h (by omega), by omega⟩
  · exact .inr ⟨s4 _ _ h, by omega⟩
  · exact .inl ⟨single_get _ h (by omega), by omega⟩
  · exact .inr ⟨hd _ _ h, by omega⟩

/-- **C06.** A string that contains neither braces, `-`, nor the `urn:`/`uuid:` prefixes is accepted only if it has 32
characters: of any other length it is rejected with `ValueError`. -/
theorem C06_uuid_string_length (s : List Char) (h : ∀ c ∈ s, c ∉ ['{', '}', '-', 'u'])
    (hlen : s.length ≠ 32) : uuidNew (string := s) = .error .valueError := by
  have hno : ∀ d, d ∈ ['{', '}', '-', 'u'] → d ∉ s := fun d hd hs => h d hs hd
  simp only [uuidNew, uuidOfString]
  rw [show "urn:".toList = 'u' :: "rn:".toList from by decide,
    show "uuid:".toList = 'u' :: "uid:".toList from by decide]
  rw [removeSub_id (hno 'u' (by decide)), removeSub_id (hno 'u' (by decide))]
  rw [stripChars_id (by
    intro c hc hm
    simp only [List.mem_cons, List.not_mem_nil, or_false] at hm
    rcases hm with rfl | rfl
    · exact hno '{' (by decide) hc
    · exact hno '}' (by decide) hc)]
  rw [List.filter_eq_self.mpr (by
    intro c hc
    have : c ≠ '-' := by rintro rfl; exact hno '-' (by decide) hc
    simpa using this)]
  rw [if_pos hlen]

example : ∀ c ∈ "0123456789".toList, c ∉ ['{', '}', '-', 'u'] := by decide

/-- Hexadecimal digit of either case. -/
def isHexDigit (c : Char) : Prop := c ∈ "0123456789abcdefABCDEF".toList
instance (c : Char) : Decidable (isHexDigit c) := by unfold isHexDigit; infer_instance

theorem pyLong16_hexDigit {s : List Char} (h : ∀ c ∈ s, isHexDigit c) (hne : s ≠ []) : pyLong16 s = hexNumber s 0 := by
  unfold pyLong16
  have hnot : ∀ d : Char, d ∉ "0123456789abcdefABCDEF".toList → d ∉ s := fun d hd hm => hd (h d hm)
  rw [stripChars_id (by
    intro c hc hm
    have := h c hc
    simp only [List.mem_cons, List.not_mem_nil, or_false] at hm
    rcases hm with rfl | rfl | rfl | rfl | rfl | rfl <;> exact absurd this (by unfold isHexDigit; decide))]
  have h1 : ¬ s.head? = some '+' := fun hc => hnot '+' (by decide) (List.mem_of_mem_head? hc)
  have h2 : ¬ (s.take 2 = ['0', 'x'] ∨ s.take 2 = ['0', 'X']) := by
    rintro (hc | hc)
    · exact hnot 'x' (by decide) (List.mem_of_mem_take (i := 2) (by rw [hc]; simp))
    · exact hnot 'X' (by decide) (List.mem_of_mem_take (i := 2) (by rw [hc]; simp))
  have h3 : ¬ (s.getLast? = some 'l' ∨ s.getLast? = some 'L') := by
    rintro (hc | hc)
    · exact hnot 'l' (by decide) (List.mem_of_mem_getLast? hc)
    · exact hnot 'L' (by decide) (List.mem_of_mem_getLast? hc)
  simp only [if_neg h1, if_neg h2, if_neg h3, if_neg hne]

theorem hexVal_digit {c : Char} (h : isHexDigit c) : ∃ d, hexVal c = some d ∧ d < 16 := by
  have : ∀ c ∈ "0123456789abcdefABCDEF".toList, ∃ d, hexVal c = some d ∧ d < 16 := by
    intro c hc
    simp only [show "0123456789abcdefABCDEF".toList = ['0','1','2','3','4','5','6','7','8','9','a','b','c','d','e','f',
      'A','B','C','D','E','F'] from by decide, List.mem_cons, List.not_mem_nil, or_false] at hc
    rcases hc with rfl | rfl | rfl | rfl | rfl | rfl | rfl | rfl | rfl | rfl | rfl | rfl | rfl | rfl | rfl | rfl | rfl
      | rfl | rfl | rfl | rfl | rfl <;> exact ⟨_, rfl, by decide⟩
  exact this c h

theorem hexNumber_digits {s : List Char} (h : ∀ c ∈ s, isHexDigit c) (acc : Nat) :
    ∃ n, hexNumber s acc = some n ∧ n < (acc + 1) * 16 ^ s.length := by
  induction s generalizing acc with
  | nil => exact ⟨acc, rfl, by simp⟩
  | cons c s ih =>
    obtain ⟨d, hd, hd16⟩ := hexVal_digit (h c List.mem_cons_self)
    obtain ⟨n, hn, hlt⟩ := ih (fun c hc => h c (List.mem_cons_of_mem _ hc)) (acc * 16 + d)
    refine ⟨n, by simp only [hexNumber, hd, hn], Nat.lt_of_lt_of_le hlt ?_⟩
    rw [List.length_cons, Nat.pow_succ, Nat.mul_comm (16 ^ s.length) 16, ← Nat.mul_assoc]
    exact Nat.mul_le_mul_right _ (by omega)

theorem hexVal_spellings {c : Char} (h : isHexDigit c) : ∃ d, hexVal c = some d ∧ d < 16 ∧ c ∈ spellings d := by
  have : ∀ c ∈ "0123456789abcdefABCDEF".toList, ∃ d, hexVal c = some d ∧ d < 16 ∧ c ∈ spellings d := by
    intro c hc
    simp only [show "0123456789abcdefABCDEF".toList = ['0','1','2','3','4','5','6','7','8','9','a','b','c','d','e','f',
      'A','B','C','D','E','F'] from by decide, List.mem_cons, List.not_mem_nil, or_false] at hc
    rcases hc with rfl | rfl | rfl | rfl | rfl | rfl | rfl | rfl | rfl | rfl | rfl | rfl | rfl | rfl | rfl | rfl | rfl
      | rfl | rfl | rfl | rfl | rfl <;> exact ⟨_, rfl, by decide, by decide⟩
  exact this c h

theorem Spec.Spells.append {l l' : List Char} {b b' : Bytes} (h : Spells l b) (h' : Spells l' b') : Spells (l ++ l') (b ++ b') := by
  induction h with
  | nil => exact h'
  | cons hc hd _ ih => exact .cons hc hd ih

theorem hexNumber_spells : ∀ (k : Nat) (s : List Char) (n : Nat), s.length = 2 * k → (∀ c ∈ s, isHexDigit c) → hexNumber s 0 = some n →
    Spells s (leBytes k n).reverse
  | 0, s, n, hl, _, _ => by
    rw [List.length_eq_zero_iff.mp (by omega : s.length = 0)]
    exact .nil
  | k + 1, s, n, hl, hx, hn => by
    obtain ⟨t, c, d, rfl, ht⟩ : ∃ t c d, s = t ++ [c, d] ∧ t.length = 2 * k := by
      refine ⟨s.take (2 * k), s[2 * k], s[2 * k + 1], ?_, by simp; omega⟩
      conv => lhs; rw [← List.take_append_drop (2 * k) s]
      congr 1
      apply List.ext_getElem
      · simp; omega
      · intro i h1 h2
        have : i = 0 ∨ i = 1 := by simp at h2; omega
        rcases this with rfl | rfl <;> simp
    obtain ⟨x, hx1, hx2, hx3⟩ := hexVal_spellings (hx c (by simp))
    obtain ⟨y, hy1, hy2, hy3⟩ := hexVal_spellings (hx d (by simp))
    rw [hexNumber_append] at hn
    cases hm : hexNumber t 0 with
    | none => rw [hm] at hn; simp at hn
    | some m =>
      rw [hm] at hn
      simp only [Option.bind_some, hexNumber, hx1, hy1, Option.some.injEq] at hn
      have ih := hexNumber_spells k t m ht (fun c hc => hx c (by simp [hc])) hm
      have e1 : n / 256 = m := by omega
      have e2 : n % 256 = x * 16 + y := by omega
      rw [leBytes, List.reverse_cons, e1]
      refine ih.append (.cons ?_ ?_ .nil)
      · rw [e2, show (UInt8.ofNat (x * 16 + y)).toNat / 16 = x by rw [UInt8.toNat_ofNat']; omega]; exact hx3
      · rw [e2, show (UInt8.ofNat (x * 16 + y)).toNat % 16 = y by rw [UInt8.toNat_ofNat']; omega]; exact hy3

/-- **C06.** Without its dashes, `str(u)` spells the bytes of `u` in hexadecimal, the first byte first. -/
theorem C06_uuid_string_digits (u : BitVec 128) : Spells ((uuidToString u).filter (· ≠ '-')) (uuidGetBytes u) := by
  rw [uuidToString_filter]
  unfold uuidGetBytes uuidBytes
  refine hexNumber_spells 16 _ _ (hexDigits_length 32 _) (fun c hc => ?_) ?_
  · have := hexDigits_isHex hc
    unfold isHexLower at this
    unfold isHexDigit
    rw [show "0123456789abcdefABCDEF".toList = "0123456789abcdef".toList ++ "ABCDEF".toList from by decide]
    exact List.mem_append_left _ this
  · rw [hexNumber_hexDigits, Nat.zero_mul, Nat.zero_add, Nat.mod_eq_of_lt (by simpa using u.isLt)]

/-- **C06.** A string of hexadecimal digits (either case) and dashes is accepted exactly when it has 32 digits (which then spell the bytes of the UUID),
otherwise rejected with `ValueError`. -/
theorem C06_uuid_string_accept (s : List Char) (h : ∀ c ∈ s, isHexDigit c ∨ c = '-') :
    ((s.filter (· ≠ '-')).length = 32 → ∃ u, uuidNew (string := s) = .ok u ∧
      Spells (s.filter (· ≠ '-')) (uuidGetBytes u)) ∧
    ((s.filter (· ≠ '-')).length ≠ 32 → uuidNew (string := s) = .error .valueError) := by
  have hno : ∀ d : Char, d ∉ "-0123456789abcdefABCDEF".toList → d ∉ s := by
    intro d hd hc
    apply hd
    rcases h d hc with h | rfl
    · exact List.mem_cons_of_mem '-' h
    · decide
  simp only [uuidNew, uuidOfString]
  rw [show "urn:".toList = 'u' :: "rn:".toList from by decide,
    show "uuid:".toList = 'u' :: "uid:".toList from by decide]
  rw [removeSub_id (hno 'u' (by decide)), removeSub_id (hno 'u' (by decide))]
  rw [stripChars_id (by
    intro c hc hm
    simp only [List.mem_cons, List.not_mem_nil, or_false] at hm
    rcases hm with rfl | rfl
    · exact hno '{' (by decide) hc
    · exact hno '}' (by decide) hc)]
  have hf : ∀ c ∈ s.filter (· ≠ '-'), isHexDigit c := by
    intro c hc
    rw [List.mem_filter] at hc
    rcases h c hc.1 with h | rfl
    · exact h
    · simp at hc
  generalize s.filter (· ≠ '-') = H at *
  constructor
  · intro hlen
    rw [if_neg (by simp [hlen]), pyLong16_hexDigit hf (by intro h0; rw [h0] at hlen; simp at hlen)]
    obtain ⟨n, hn, hlt⟩ := hexNumber_digits hf 0
    rw [hn]
    have hlt' : n < 2 ^ 128 := by
      rw [hlen] at hlt
      have h16 : (0 + 1) * 16 ^ 32 = 2 ^ 128 := by decide
      omega
    refine ⟨BitVec.ofNat 128 n, by simp only [if_pos hlt'], ?_⟩
    unfold uuidGetBytes uuidBytes
    refine hexNumber_spells 16 H _ hlen hf ?_
    simp only [BitVec.toNat_ofNat, Nat.mod_eq_of_lt hlt', hn]
  · intro hlen
    rw [if_pos hlen]

example : ∀ c ∈ "AB-cd01".toList, isHexDigit c ∨ c = '-' := by decide

/-- The claim "a string without exactly 32 hex digits is rejected" fails: the standard library converts with
`long(hex, 16)`, which also takes a `0x` prefix or a trailing `L` among the 32 characters. -/
theorem C06_uuid_string_lenient :
    uuidNew (string := "0x3456789abcdef0123456789abcdef0".toList) = .ok 0x3456789abcdef0123456789abcdef0 ∧
    uuidNew (string := "3456789abcdef0123456789abcdef01L".toList) = .ok 0x3456789abcdef0123456789abcdef01 ∧
    uuidNew (string := "0X456789abcdef0123456789abcdef1l".toList) = .ok 0x456789abcdef0123456789abcdef1 ∧
    uuidNew (string := "\n+  789ABCDEF0123456789ABCDEF01 ".toList) = .ok 0x789ABCDEF0123456789ABCDEF01 ∧
    uuidNew (string := "3456789abcdef0123456789abcdef0LL".toList) = .error .valueError ∧
    uuidNew (string := "0x0x456789abcdef0123456789abcdef".toList) = .error .valueError := by decide +kernel

/-- **C06**, on the wire: an LLUUID field is exactly the 16 bytes and is received as the UUID sent. -/
theorem C06_uuid_field (rt : Runtime) (u : BitVec 128) (en? : Option Endian) :
    packData rt (.uuid u) .uuid en? = .ok (uuidGetBytes u) ∧
    unpackData rt (uuidGetBytes u) .uuid none none en? = .ok (.uuid u) := by
  refine ⟨rfl, ?_⟩
  have hsl : slice (uuidBytes u) 0 16 = uuidBytes u := by
    simp [slice, List.take_of_length_le, uuidBytes_length]
  simp only [unpackData, unpackerTable, selectBytes, Codec.unpack, uuidGetBytes, hsl, uuidOfBytes_uuidBytes]; rfl

theorem uuidXor_eq (a b : BitVec 128) : uuidXor a b = .ok (a ^^^ b) := by
  have hlt : a.toNat ^^^ b.toNat < 2 ^ 128 := Nat.xor_lt_two_pow a.isLt b.isLt
  simp only [uuidXor, if_pos hlt, uuidNew, uuidOfString_uuidToString]
  congr 1
  apply BitVec.eq_of_toNat_eq
  rw [BitVec.toNat_ofNat, Nat.mod_eq_of_lt hlt, BitVec.toNat_xor]

theorem leBytes_xor (k m n : Nat) : leBytes k (m ^^^ n) = List.zipWith (· ^^^ ·) (leBytes k m) (leBytes k n) := by
  induction k generalizing m n with
  | zero => rfl
  | succ k ih =>
    simp only [leBytes, List.zipWith_cons_cons]
    congr 1
    · rw [show 256 = 2 ^ 8 from rfl, Nat.xor_mod_two_pow]
      exact (UInt8.ofNat_xor _ _)
    · rw [← ih, show 256 = 2 ^ 8 from rfl, ← Nat.shiftRight_eq_div_pow, ← Nat.shiftRight_eq_div_pow,
        ← Nat.shiftRight_eq_div_pow, Nat.shiftRight_xor_distrib]

/-- **C07.** xor of UUIDs never fails, is bytewise, commutative, associative, has the null UUID as neutral element and
every UUID as its own inverse. -/
theorem C07_uuid_xor (a b c : BitVec 128) :
    (∃ ab, uuidXor a b = .ok ab ∧
      uuidGetBytes ab = List.zipWith (· ^^^ ·) (uuidGetBytes a) (uuidGetBytes b) ∧
      uuidXor b a = .ok ab ∧
      ∃ bc abc, uuidXor b c = .ok bc ∧ uuidXor ab c = .ok abc ∧ uuidXor a bc = .ok abc) ∧
    uuidNew = .ok 0#128 ∧ uuidXor a 0#128 = .ok a ∧ uuidXor a a = .ok 0#128 := by
  refine ⟨⟨a ^^^ b, uuidXor_eq a b, ?_, ?_, b ^^^ c, a ^^^ b ^^^ c, uuidXor_eq _ _, uuidXor_eq _ _, ?_⟩, ?_, ?_, ?_⟩
  · simp only [uuidGetBytes, uuidBytes, BitVec.toNat_xor]
    rw [leBytes_xor, List.reverse_zipWith (by simp)]
  · rw [uuidXor_eq, BitVec.xor_comm]
  · rw [uuidXor_eq, BitVec.xor_assoc]
  · decide +kernel
  · rw [uuidXor_eq, BitVec.xor_zero]
  · rw [uuidXor_eq, BitVec.xor_self]

/-- `UUID.random` only ever replaces the null UUID. -/
theorem C06_uuid_random (u fresh : BitVec 128) :
    (u = 0#128 → uuidRandom u fresh = (fresh, some fresh)) ∧ (u ≠ 0#128 → uuidRandom u fresh = (u, none)) := by
  have h0 : uuidToString 0#128 = "00000000-0000-0000-0000-000000000000".toList := by decide +kernel
  unfold uuidRandom
  constructor
  · rintro rfl
    rw [if_pos h0]
  · intro hu
    rw [if_neg]
    intro hc
    rw [← h0] at hc
    apply hu
    have := congrArg uuidOfString hc
    rw [uuidOfString_uuidToString, uuidOfString_uuidToString] at this
    exact Except.ok.inj this

end Pyogp
