import Verif.Spec.Caps
import Verif.Proofs.Dict

/-! # Proofs about capabilities -/

namespace Pyogp
open Spec

theorem takeWhile_ne_eq {α : Type} [DecidableEq α] (c : α) (t : List α) (ht : c ∉ t) : ∀ l : List α,
    l.takeWhile (fun x => decide (x ≠ c)) = t ↔ l = t ∨ ∃ r, l = t ++ c :: r := by
  induction t with
  | nil =>
    intro l
    cases l with
    | nil => simp
    | cons a l =>
      by_cases h : a = c <;> simp [h]
  | cons b t ih =>
    intro l
    have hb : b ≠ c := fun h => ht (h ▸ List.mem_cons_self)
    have ht' : c ∉ t := fun h => ht (List.mem_cons_of_mem _ h)
    cases l with
    | nil => simp
    | cons a l =>
      by_cases h : a = c
      · subst h
        simp [Ne.symm hb]
      · have := ih ht' l
        simp only [List.takeWhile_cons, h, ne_eq, not_false_eq_true, decide_true, if_true, List.cons.injEq, List.cons_append]
        constructor
        · rintro ⟨rfl, h2⟩
          rcases this.mp h2 with rfl | ⟨r, rfl⟩
          · exact .inl ⟨rfl, rfl⟩
          · exact .inr ⟨r, rfl, rfl⟩
        · rintro (⟨rfl, rfl⟩ | ⟨r, rfl, rfl⟩)
          · exact ⟨rfl, this.mpr (.inl rfl)⟩
          · exact ⟨rfl, this.mpr (.inr ⟨r, rfl⟩)⟩

theorem beforeSemicolon_iff (t ct : String) (ht : ';' ∉ t.toList) : beforeSemicolon ct = t ↔ MediaType t ct := by
  have := takeWhile_ne_eq ';' t.toList ht ct.toList
  unfold MediaType beforeSemicolon
  rw [← this]
  constructor
  · intro h; rw [← h]; simp
  · intro h; rw [h]; simp

theorem isSpace_iff (b : UInt8) : isSpace b = true ↔ Space b := by
  simp only [isSpace, Space, Bool.or_eq_true, Bool.and_eq_true, decide_eq_true_eq, ← UInt8.toNat_inj]
  simp only [UInt8.reduceToNat]
  omega

theorem dropLit_iff (lit : String) (b r : Bytes) : dropLit lit b = some r ↔ b = asciiBytes lit ++ r := by
  unfold dropLit
  generalize asciiBytes lit = p
  by_cases h : p.isPrefixOf b = true
  · obtain ⟨t, ht⟩ := List.isPrefixOf_iff_prefix.mp h
    subst ht
    simp
  · simp only [h, Bool.false_eq_true, if_false, reduceCtorEq, false_iff]
    intro hb
    exact h (List.isPrefixOf_iff_prefix.mpr ⟨r, hb.symm⟩)

theorem dropSpace_iff (b r : Bytes) : dropSpace b = some r ↔ ∃ s, Space s ∧ b = s :: r := by
  cases b with
  | nil => simp [dropSpace]
  | cons a l =>
    unfold dropSpace
    by_cases h : isSpace a = true
    · simp only [h, if_true, Option.some.injEq, List.cons.injEq]
      constructor
      · rintro rfl; exact ⟨a, (isSpace_iff a).mp h, rfl, rfl⟩
      · rintro ⟨s, _, _, h⟩; exact h
    · simp only [h, if_false, reduceCtorEq, false_iff, Bool.false_eq_true]
      rintro ⟨s, hs, h2⟩
      cases h2
      exact h ((isSpace_iff _).mpr hs)

theorem closingTag_iff (b : Bytes) : closingTag b = true ↔ ∃ content rest, (10 : UInt8) ∉ content ∧ b = content ++ asciiBytes "</llsd>" ++ rest := by
  have hp : ∀ l : Bytes, (asciiBytes "</llsd>").isPrefixOf l = true ↔ ∃ rest, l = asciiBytes "</llsd>" ++ rest := by
    intro l
    rw [List.isPrefixOf_iff_prefix]
    constructor
    · rintro ⟨t, rfl⟩; exact ⟨t, rfl⟩
    · rintro ⟨t, rfl⟩; exact ⟨t, rfl⟩
  have hne : asciiBytes "</llsd>" ≠ [] := by decide +kernel
  revert hp hne
  induction b with
  | nil =>
    intro hp hne
    simp only [closingTag, Bool.false_eq_true, false_iff]
    rintro ⟨c, r, _, h⟩
    have := congrArg List.length h
    simp only [List.length_append, List.length_nil] at this
    exact hne (List.length_eq_zero_iff.mp (by omega))
  | cons a l ih =>
    intro hp hne
    have ih := ih hp hne
    rw [closingTag, Bool.or_eq_true, hp, Bool.and_eq_true]
    constructor
    · rintro (⟨r, h⟩ | ⟨ha, h⟩)
      · exact ⟨[], r, by simp, by simpa using h⟩
      · obtain ⟨c, r, hc, h⟩ := ih.mp h
        refine ⟨a :: c, r, ?_, by rw [h]; rfl⟩
        have ha' : a ≠ 10 := by simpa using ha
        intro hm
        rcases List.mem_cons.mp hm with hm | hm
        · exact ha' hm.symm
        · exact hc hm
    · rintro ⟨c, r, hc, h⟩
      cases c with
      | nil => exact .inl ⟨r, by simpa using h⟩
      | cons x c =>
        simp only [List.cons_append, List.cons.injEq] at h
        obtain ⟨rfl, h⟩ := h
        refine .inr ⟨?_, ih.mpr ⟨c, r, fun hm => hc (List.mem_cons_of_mem _ hm), h⟩⟩
        have : a ≠ 10 := fun ha => hc (ha ▸ List.mem_cons_self)
        simpa using this

theorem looksLikeLlsd_iff (body : Bytes) : looksLikeLlsd body = true ↔ StartsWithLlsd body := by
  unfold looksLikeLlsd
  constructor
  · intro h
    split at h
    · cases h
    · rename_i b hb
      simp only [Option.bind_eq_bind, Option.bind_eq_some_iff] at hb
      obtain ⟨b1, h1, b2, h2, b3, h3, b4, h4, b5, h5, b6, h6, h7⟩ := hb
      obtain ⟨c, r, hc, hr⟩ := (closingTag_iff b).mp h
      obtain ⟨s1, hs1, e2⟩ := (dropSpace_iff _ _).mp h2
      obtain ⟨s2, hs2, e6⟩ := (dropSpace_iff _ _).mp h6
      cases b3 with
      | nil => simp at h4
      | cons d b3 =>
        simp only at h4
        by_cases hd : d = 10
        · simp [hd] at h4
        · simp only [hd, if_false, Option.some.injEq] at h4
          subst h4
          refine ⟨s1, d, s2, c, r, hs1, hd, hs2, hc, ?_⟩
          rw [(dropLit_iff _ _ _).mp h1, e2, (dropLit_iff _ _ _).mp h3, (dropLit_iff _ _ _).mp h5, e6, (dropLit_iff _ _ _).mp h7, hr]
          simp only [List.append_assoc, List.cons_append]
  · rintro ⟨s1, d, s2, c, r, hs1, hd, hs2, hc, rfl⟩
    have h1 : ∀ r, dropLit "<?xml" (asciiBytes "<?xml" ++ r) = some r := fun r => (dropLit_iff _ _ _).mpr rfl
    have h3 : ∀ r, dropLit "version=\"1" (asciiBytes "version=\"1" ++ r) = some r := fun r => (dropLit_iff _ _ _).mpr rfl
    have h5 : ∀ r, dropLit "0\"" (asciiBytes "0\"" ++ r) = some r := fun r => (dropLit_iff _ _ _).mpr rfl
    have h7 : ∀ r, dropLit "?><llsd>" (asciiBytes "?><llsd>" ++ r) = some r := fun r => (dropLit_iff _ _ _).mpr rfl
    have h2 : ∀ r, dropSpace (s1 :: r) = some r := fun r => (dropSpace_iff _ _).mpr ⟨s1, hs1, rfl⟩
    have h6 : ∀ r, dropSpace (s2 :: r) = some r := fun r => (dropSpace_iff _ _).mpr ⟨s2, hs2, rfl⟩
    have h8 := (closingTag_iff (c ++ (asciiBytes "</llsd>" ++ r))).mpr ⟨c, r, hc, by simp only [List.append_assoc]⟩
    revert h1 h3 h5 h7 h2 h6 h8
    generalize asciiBytes "<?xml" = l1
    generalize asciiBytes "version=\"1" = l2
    generalize asciiBytes "0\"" = l3
    generalize asciiBytes "?><llsd>" = l4
    generalize asciiBytes "</llsd>" = l5
    intro h1 h3 h5 h7 h2 h6 h8
    simp only [List.append_assoc, List.cons_append, h1, h2, h3, h5, h6, h7, hd, if_false, Option.bind_eq_bind, Option.bind_some, h8]

theorem isFalse_iff (v : Llsd) : isFalse v = true ↔ EqualsFalse v := by
  unfold EqualsFalse
  cases v <;> simp [isFalse]

theorem llsdDeserialize_cases (parse : Bytes → Option Llsd) (accepts : String → Bytes → Prop) (ct : String) (body : Bytes)
    (h : accepts ct body) : HttpResult accepts parse (.response (some ct) body) (llsdDeserialize parse body) := by
  unfold llsdDeserialize
  cases hp : parse body with
  | none => exact .malformed ct body h hp
  | some v =>
    by_cases hf : isFalse v = true
    · simp only [hf, if_true]; exact .falseValue ct body v h hp ((isFalse_iff v).mp hf)
    · simp only [hf, Bool.false_eq_true, if_false]
      exact .parsed ct body v h hp (fun hv => hf ((isFalse_iff v).mpr hv))

theorem HttpResult_functional {accepts : String → Bytes → Prop} {parse : Bytes → Option Llsd} {o : HttpOutcome} {r r' : Py Llsd}
    (h : HttpResult accepts parse o r) (h' : HttpResult accepts parse o r') : r = r' := by
  cases h <;> cases h' <;> simp_all

theorem restError_cases (parse : Bytes → Option Llsd) (accepts : String → Bytes → Prop) (c : Int) :
    HttpResult accepts parse (.httpError c) (.error (restError c)) := by
  unfold restError
  by_cases h : c = 404
  · subst h; exact .notFound
  · simp only [h, if_false]; exact .failed c h

theorem responseHandler_cases (parse : Bytes → Option Llsd) (ct : Option String) (body : Bytes) :
    HttpResult PostAccepts parse (.response ct body) (responseHandler parse ct body) := by
  cases ct with
  | none => exact .noType body
  | some ct =>
    unfold responseHandler
    simp only
    have e1 := beforeSemicolon_iff "application/llsd+xml" ct (by decide)
    have e2 := beforeSemicolon_iff "application/xml" ct (by decide)
    have e3 := beforeSemicolon_iff "text/html" ct (by decide)
    by_cases h : PostAccepts ct body
    · have h' := h
      unfold PostAccepts at h'
      rw [← e1, ← e2, ← e3, ← looksLikeLlsd_iff] at h'
      simp only [h', if_true]
      exact llsdDeserialize_cases parse PostAccepts ct body h
    · have h' := h
      unfold PostAccepts at h'
      rw [← e1, ← e2, ← e3, ← looksLikeLlsd_iff] at h'
      simp only [h', if_false]
      exact .unsupported ct body h

/-! ## Headers -/

theorem wireHeaders_get (h : Dict String String) : ∀ (d : Dict String String) (n : String),
    (∀ p ∈ h, capitalize p.1 ≠ n) → (h.foldl (fun d p => d.set (capitalize p.1) p.2) d).get? n = d.get? n := by
  induction h with
  | nil => intro d n _; rfl
  | cons p h ih =>
    intro d n hn
    rw [List.foldl_cons, ih _ n (fun q hq => hn q (List.mem_cons_of_mem _ hq)), Dict.get?_set_ne _ _ (hn p List.mem_cons_self)]

theorem wireHeaders_mem (h : Dict String String) : ∀ (d : Dict String String) {k v : String}, (k, v) ∈ h → (h.map (·.1)).Nodup →
    (∀ p ∈ h, capitalize p.1 = capitalize k → p.1 = k) →
    (h.foldl (fun d p => d.set (capitalize p.1) p.2) d).get? (capitalize k) = some v := by
  induction h with
  | nil => intro d k v hm; cases hm
  | cons p h ih =>
    intro d k v hm hn hc
    rw [List.foldl_cons]
    rw [List.map_cons, List.nodup_cons] at hn
    rcases List.mem_cons.mp hm with hm | hm
    · subst hm
      rw [wireHeaders_get h _ _ ?_, Dict.get?_set_self]
      intro q hq heq
      have := hc q (List.mem_cons_of_mem _ hq) heq
      exact hn.1 (List.mem_map.mpr ⟨q, hq, this⟩)
    · exact ih _ hm hn.2 (fun q hq => hc q (List.mem_cons_of_mem _ hq))

theorem foldl_set_keys_nodup {κ α : Type} [DecidableEq κ] (l : Dict κ α) : ∀ d : Dict κ α, d.keys.Nodup →
    (l.foldl (fun d p => d.set p.1 p.2) d).keys.Nodup := by
  induction l with
  | nil => intro d h; exact h
  | cons p l ih =>
    intro d h
    rw [List.foldl_cons]
    apply ih
    rw [Dict.keys_set]
    split
    · exact h
    · rename_i hk
      rw [List.nodup_append]
      refine ⟨h, by simp, ?_⟩
      intro a ha b hb
      rw [List.mem_singleton] at hb
      subst hb
      intro hab; subst hab
      exact hk ha

theorem foldl_set_get {κ α : Type} [DecidableEq κ] (l : Dict κ α) : ∀ (d : Dict κ α) (k : κ), (l.map (·.1)).Nodup →
    (l.foldl (fun d p => d.set p.1 p.2) d).get? k = (l.get? k).or (d.get? k) := by
  induction l with
  | nil => intro d k _; rfl
  | cons p l ih =>
    intro d k hn
    rw [List.map_cons, List.nodup_cons] at hn
    rw [List.foldl_cons, ih _ k hn.2, Dict.get?_set]
    by_cases h : p.1 = k
    · subst h
      have : Dict.get? l p.1 = none := (Dict.get?_eq_none_iff l p.1).mpr hn.1
      rw [this]
      simp [Dict.get?]
    · simp only [h, if_false]
      congr 1
      simp [Dict.get?, h]

/-! ## The seed capability -/

theorem grantedCaps_ok (granted : List (String × Llsd)) : ∀ (names : List String) (d : Dict String Capability),
    (∀ n ∈ names, Dict.get? granted n ≠ none) →
    ∃ caps, grantedCaps (.map granted) names d = .ok caps ∧
      ∀ n, caps.get? n = if n ∈ names then (Dict.get? granted n).map (fun u => ⟨n, u⟩) else d.get? n := by
  intro names
  induction names with
  | nil => intro d _; exact ⟨d, rfl, fun n => by simp⟩
  | cons m ns ih =>
    intro d h
    obtain ⟨u, hu⟩ := Option.ne_none_iff_exists'.mp (h m List.mem_cons_self)
    obtain ⟨caps, hc, hg⟩ := ih (d.set m ⟨m, u⟩) (fun n hn => h n (List.mem_cons_of_mem _ hn))
    refine ⟨caps, ?_, ?_⟩
    · rw [grantedCaps]
      simp only [llsdItem, Dict.get, hu]
      exact hc
    · intro n
      rw [hg n, Dict.get?_set]
      by_cases h1 : n ∈ ns
      · simp [h1]
      · by_cases h2 : m = n
        · subst h2; simp [hu]
        · simp [h1, h2, Ne.symm h2]

theorem grantedCaps_keys (granted : Llsd) : ∀ (names : List String) (d caps : Dict String Capability),
    d.keys.Nodup → grantedCaps granted names d = .ok caps → caps.keys.Nodup := by
  intro names
  induction names with
  | nil => intro d caps hd h; cases h; exact hd
  | cons m ns ih =>
    intro d caps hd h
    rw [grantedCaps] at h
    cases hi : llsdItem granted m with
    | error e => rw [hi] at h; cases h
    | ok u =>
      rw [hi] at h
      refine ih _ caps ?_ h
      rw [Dict.keys_set]
      split
      · exact hd
      · rename_i hk
        rw [List.nodup_append]
        refine ⟨hd, by simp, ?_⟩
        intro a ha b hb
        rw [List.mem_singleton] at hb
        subst hb
        intro hab; subst hab
        exact hk ha

theorem grantedCaps_error (granted : List (String × Llsd)) : ∀ (names : List String) (d : Dict String Capability),
    (∃ n ∈ names, Dict.get? granted n = none) → grantedCaps (.map granted) names d = .error .keyError := by
  intro names
  induction names with
  | nil => rintro d ⟨n, h, _⟩; cases h
  | cons m ns ih =>
    rintro d ⟨n, hn, hg⟩
    rw [grantedCaps]
    cases hm : Dict.get? granted m with
    | none => simp only [llsdItem, Dict.get, hm]; rfl
    | some u =>
      simp only [llsdItem, Dict.get, hm]
      refine ih _ ⟨n, ?_, hg⟩
      rcases List.mem_cons.mp hn with rfl | h
      · rw [hg] at hm; cases hm
      · exact h

theorem toLower_val (c : Char) : c.toLower.val.toNat = if 65 ≤ c.val.toNat ∧ c.val.toNat ≤ 90 then c.val.toNat + 32 else c.val.toNat := by
  unfold Char.toLower
  by_cases h : c.val ≥ 'A'.val ∧ c.val ≤ 'Z'.val
  · rw [dif_pos h]
    have h' : 65 ≤ c.val.toNat ∧ c.val.toNat ≤ 90 := ⟨UInt32.le_iff_toNat_le.mp h.1, UInt32.le_iff_toNat_le.mp h.2⟩
    rw [if_pos h', UInt32.toNat_add]
    change (c.val.toNat + 32) % 4294967296 = _
    omega
  · rw [dif_neg h, if_neg]
    exact fun h' => h ⟨UInt32.le_iff_toNat_le.mpr h'.1, UInt32.le_iff_toNat_le.mpr h'.2⟩

theorem toUpper_val (c : Char) : c.toUpper.val.toNat = if 97 ≤ c.val.toNat ∧ c.val.toNat ≤ 122 then c.val.toNat - 32 else c.val.toNat := by
  unfold Char.toUpper
  by_cases h : c.val ≥ 'a'.val ∧ c.val ≤ 'z'.val
  · rw [dif_pos h]
    have h' : 97 ≤ c.val.toNat ∧ c.val.toNat ≤ 122 := ⟨UInt32.le_iff_toNat_le.mp h.1, UInt32.le_iff_toNat_le.mp h.2⟩
    rw [if_pos h', UInt32.toNat_add]
    change (c.val.toNat + 4294967264) % 4294967296 = _
    omega
  · rw [dif_neg h, if_neg]
    exact fun h' => h ⟨UInt32.le_iff_toNat_le.mpr h'.1, UInt32.le_iff_toNat_le.mpr h'.2⟩

theorem char_val_inj {a b : Char} (h : a.val.toNat = b.val.toNat) : a = b := Char.ext (UInt32.toNat_inj.mp h)

theorem toLower_toLower (c : Char) : c.toLower.toLower = c.toLower := by
  apply char_val_inj
  have h1 := toLower_val c; have h2 := toLower_val c.toLower
  split at h1 <;> split at h2 <;> omega

theorem toLower_toUpper (c : Char) : c.toUpper.toLower = c.toLower := by
  apply char_val_inj
  have h1 := toLower_val c; have h2 := toUpper_val c; have h3 := toLower_val c.toUpper
  split at h1 <;> split at h2 <;> split at h3 <;> omega

theorem toUpper_toLower (c : Char) : c.toLower.toUpper = c.toUpper := by
  apply char_val_inj
  have h1 := toLower_val c; have h2 := toUpper_val c; have h3 := toUpper_val c.toLower
  split at h1 <;> split at h2 <;> split at h3 <;> omega

end Pyogp
