import Verif.Model.Uuid
import Verif.Proofs.Field

namespace Pyogp

/-- Lower-case hexadecimal digit. -/
def isHexLower (c : Char) : Prop := c ∈ "0123456789abcdef".toList

theorem hexChar_isHex (n : Nat) : isHexLower (hexChar n) := by
  unfold isHexLower hexChar
  by_cases h : n < 16
  · have : ∀ m : Fin 16, "0123456789abcdef".toList.getD m '0' ∈ "0123456789abcdef".toList := by decide
    exact this ⟨n, h⟩
  · have hn : "0123456789abcdef".toList[n]? = none := List.getElem?_eq_none (by
      have : "0123456789abcdef".toList.length = 16 := by decide
      omega)
    rw [List.getD_eq_getElem?_getD, hn]
    decide

theorem hexVal_hexChar {n : Nat} (h : n < 16) : hexVal (hexChar n) = some n := by
  have : ∀ m : Fin 16, hexVal (hexChar m) = some m.val := by decide
  exact this ⟨n, h⟩

theorem hexDigits_length (k n : Nat) : (hexDigits k n).length = k := by
  induction k generalizing n with
  | zero => rfl
  | succ k ih => simp [hexDigits, ih]

theorem hexDigits_isHex {k n : Nat} {c : Char} (h : c ∈ hexDigits k n) : isHexLower c := by
  induction k generalizing n with
  | zero => simp [hexDigits] at h
  | succ k ih =>
    simp only [hexDigits, List.mem_append, List.mem_singleton] at h
    rcases h with h | rfl
    · exact ih h
    · exact hexChar_isHex _

theorem hexNumber_append (s t : List Char) (acc : Nat) :
    hexNumber (s ++ t) acc = (hexNumber s acc).bind (hexNumber t) := by
  induction s generalizing acc with
  | nil => rfl
  | cons c s ih =>
    simp only [List.cons_append, hexNumber]
    cases hexVal c with
    | none => rfl
    | some d => exact ih _

theorem hexNumber_hexDigits (k n acc : Nat) : hexNumber (hexDigits k n) acc = some (acc * 16 ^ k + n % 16 ^ k) := by
  induction k generalizing n with
  | zero => simp [hexDigits, hexNumber, Nat.mod_one]
  | succ k ih =>
    simp only [hexDigits, hexNumber_append, ih, Option.bind_some, hexNumber, hexVal_hexChar (Nat.mod_lt n (by decide))]
    congr 1
    rw [Nat.pow_succ, Nat.mul_comm (16 ^ k) 16, Nat.mod_mul, Nat.add_mul]
    rw [Nat.mul_assoc acc, Nat.mul_comm (16 ^ k) 16]
    omega

theorem removeSub_id {p : Char} {pat s : List Char} (h : p ∉ s) (fuel : Nat) : removeSub (p :: pat) s fuel = s := by
  induction fuel generalizing s with
  | zero => rfl
  | succ fuel ih =>
    cases s with
    | nil => rfl
    | cons c s =>
      simp only [List.mem_cons, not_or] at h
      simp only [removeSub]
      rw [if_neg]
      · rw [ih h.2]
      · intro hc
        have := hc.1
        simp only [List.isPrefixOf, Bool.and_eq_true, beq_iff_eq] at this
        exact h.1 this.1

theorem dropWhile_id {cs s : List Char} (h : ∀ c ∈ s, c ∉ cs) : s.dropWhile (cs.contains ·) = s := by
  cases s with
  | nil => rfl
  | cons c s =>
    rw [List.dropWhile_cons_of_neg]
    have := h c List.mem_cons_self
    simpa using this

theorem stripChars_id {cs s : List Char} (h : ∀ c ∈ s, c ∉ cs) : stripChars cs s = s := by
  unfold stripChars
  rw [dropWhile_id h, dropWhile_id (fun c hc => h c (List.mem_reverse.mp hc)), List.reverse_reverse]

theorem isHex_ne {c d : Char} (h : isHexLower c) (hd : d ∉ "0123456789abcdef".toList) : c ≠ d := by
  rintro rfl; exact hd h

theorem pyLong16_hex {s : List Char} (h : ∀ c ∈ s, isHexLower c) (hne : s ≠ []) : pyLong16 s = hexNumber s 0 := by
  unfold pyLong16
  rw [stripChars_id (by
    intro c hc hm
    have := h c hc
    simp only [List.mem_cons, List.not_mem_nil, or_false] at hm
    rcases hm with rfl | rfl | rfl | rfl | rfl | rfl <;> exact absurd this (by unfold isHexLower; decide))]
  have hnot : ∀ d : Char, d ∉ "0123456789abcdef".toList → d ∉ s := fun d hd hm => hd (h d hm)
  have h1 : ¬ s.head? = some '+' := fun hc => hnot '+' (by decide) (List.mem_of_mem_head? hc)
  have h2 : ¬ (s.take 2 = ['0', 'x'] ∨ s.take 2 = ['0', 'X']) := by
    rintro (hc | hc)
    · exact hnot 'x' (by decide) (List.mem_of_mem_take (i := 2) (by rw [hc]; simp))
    · exact hnot 'X' (by decide) (List.mem_of_mem_take (i := 2) (by rw [hc]; simp))
  have h3 : ¬ (s.getLast? = some 'l' ∨ s.getLast? = some 'L') := by
    rintro (hc | hc)
    · exact hnot 'l' (by decide) (List.mem_of_mem_getLast? hc)
    · exact hnot 'L' (by decide) (List.mem_of_mem_getLast? hc)
  simp only [if_neg h1, if_neg h2, if_neg h3, if_neg hne]

theorem uuidToString_mem {u : BitVec 128} {c : Char} (h : c ∈ uuidToString u) : isHexLower c ∨ c = '-' := by
  have hs : ∀ i j, c ∈ slice (hexDigits 32 u.toNat) i j → isHexLower c := by
    intro i j hc
    exact hexDigits_isHex (List.mem_of_mem_drop (List.mem_of_mem_take hc))
  have hd : c ∈ (hexDigits 32 u.toNat).drop 20 → isHexLower c := fun hc => hexDigits_isHex (List.mem_of_mem_drop hc)
  unfold uuidToString at h
  generalize hexDigits 32 u.toNat = H at *
  simp only [List.mem_append, List.mem_singleton] at h
  rcases h with (((((((h | h) | h) | h) | h) | h) | h) | h) | h
  all_goals first
    | exact .inl (hs _ _ h)
    | exact .inl (hd h)
    | exact .inr h

theorem filter_hex {s : List Char} (h : ∀ c ∈ s, isHexLower c) : s.filter (· ≠ '-') = s := by
  rw [List.filter_eq_self]
  intro c hc
  have := isHex_ne (h c hc) (d := '-') (by decide)
  simpa using this

theorem slices_join {α : Type} (h : List α) :
    slice h 0 8 ++ slice h 8 12 ++ slice h 12 16 ++ slice h 16 20 ++ h.drop 20 = h := by
  have key : ∀ i j, i ≤ j → h.take i ++ slice h i j = h.take j := by
    intro i j hij
    unfold slice
    conv => rhs; rw [show j = i + (j - i) by omega, List.take_add]
  have h0 : slice h 0 8 = h.take 8 := by simp [slice]
  rw [h0, key 8 12 (by omega), key 12 16 (by omega), key 16 20 (by omega), List.take_append_drop]

theorem uuidToString_filter (u : BitVec 128) : (uuidToString u).filter (· ≠ '-') = hexDigits 32 u.toNat := by
  have hh : ∀ c ∈ hexDigits 32 u.toNat, isHexLower c := fun c hc => hexDigits_isHex hc
  unfold uuidToString
  generalize hexDigits 32 u.toNat = H at *
  have hs : ∀ i j, (slice H i j).filter (· ≠ '-') = slice H i j :=
    fun i j => filter_hex (fun c hc => hh c (List.mem_of_mem_drop (List.mem_of_mem_take hc)))
  have hd : (H.drop 20).filter (· ≠ '-') = H.drop 20 :=
    filter_hex (fun c hc => hh c (List.mem_of_mem_drop hc))
  have h1 : List.filter (fun x => decide (x ≠ '-')) ['-'] = [] := by decide
  simp only [List.filter_append, hs, hd, h1, List.append_nil]
  exact slices_join H

theorem uuidOfString_uuidToString (u : BitVec 128) : uuidOfString (uuidToString u) = .ok u := by
  have hmem := fun c (h : c ∈ uuidToString u) => uuidToString_mem h
  have hno : ∀ d : Char, d ∉ "-0123456789abcdef".toList → d ∉ uuidToString u := by
    intro d hd hc
    apply hd
    rcases hmem d hc with h | rfl
    · exact List.mem_cons_of_mem '-' h
    · decide
  have hh : ∀ c ∈ hexDigits 32 u.toNat, isHexLower c := fun c hc => hexDigits_isHex hc
  have hlen := hexDigits_length 32 u.toNat
  have hnum := hexNumber_hexDigits 32 u.toNat 0
  have hfil := uuidToString_filter u
  unfold uuidOfString
  simp only
  rw [show "urn:".toList = 'u' :: "rn:".toList from by decide,
    show "uuid:".toList = 'u' :: "uid:".toList from by decide]
  generalize uuidToString u = S at *
  rw [removeSub_id (hno 'u' (by decide)), removeSub_id (hno 'u' (by decide))]
  rw [stripChars_id (by
    intro c hc hm
    simp only [List.mem_cons, List.not_mem_nil, or_false] at hm
    rcases hm with rfl | rfl
    · exact hno '{' (by decide) hc
    · exact hno '}' (by decide) hc)]
  rw [hfil]
  generalize hexDigits 32 u.toNat = H at *
  rw [if_neg (by simp [hlen])]
  rw [pyLong16_hex hh (by intro h; rw [h] at hlen; simp at hlen)]
  rw [hnum]
  have hu := u.isLt
  have hmod : 0 * 16 ^ 32 + u.toNat % 16 ^ 32 = u.toNat := by
    rw [Nat.zero_mul, Nat.zero_add, Nat.mod_eq_of_lt (by simpa using hu)]
  simp only [hmod, if_pos hu]
  congr 1
  apply BitVec.eq_of_toNat_eq
  simp

end Pyogp
