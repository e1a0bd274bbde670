import Verif.Spec.TemplateFile
import Verif.Proofs.Templates

/-! # The parser reads every file of the layout -/

namespace Pyogp
open Spec

/-! ## Character classes -/

theorem char_eq_iff (c d : Char) : c = d ↔ c.toNat = d.toNat :=
  ⟨fun h => by rw [h], fun h => Char.ext (UInt32.toNat_inj.mp h)⟩

theorem char_le_iff (c d : Char) : c ≤ d ↔ c.toNat ≤ d.toNat := by
  rw [Char.le_def, UInt32.le_iff_toNat_le]; rfl

theorem reSpace_iff (c : Char) : reSpace c = true ↔ SpaceChar c := by
  simp only [reSpace, SpaceChar, char_eq_iff, Bool.or_eq_true, Bool.and_eq_true, Nat.beq_eq, Nat.ble_eq]
  simp only [Char.reduceToNat]
  omega

theorem reWord_iff (c : Char) : reWord c = true ↔ WordChar c := by
  simp only [reWord, WordChar, char_eq_iff, char_le_iff, Bool.or_eq_true, Bool.and_eq_true, Nat.beq_eq, Nat.ble_eq]
  simp only [Char.reduceToNat]
  omega

theorem reDigit_iff (c : Char) : reDigit c = true ↔ ('0' ≤ c ∧ c ≤ '9') := by
  simp only [reDigit, char_le_iff, Bool.and_eq_true, Nat.ble_eq]
  simp only [Char.reduceToNat]

theorem not_word_of_space {c : Char} (h : SpaceChar c) : reWord c = false := by
  have h1 := (reSpace_iff c).mpr h
  simp only [reSpace, Bool.or_eq_true, Bool.and_eq_true, Nat.beq_eq, Nat.ble_eq] at h1
  cases h2 : reWord c with
  | false => rfl
  | true =>
    simp only [reWord, Bool.or_eq_true, Bool.and_eq_true, Nat.beq_eq, Nat.ble_eq] at h2
    omega

theorem not_space_of_word {c : Char} (h : WordChar c) : reSpace c = false := by
  cases h2 : reSpace c with
  | false => rfl
  | true =>
    have h3 := not_word_of_space ((reSpace_iff c).mp h2)
    rw [(reWord_iff c).mpr h] at h3
    cases h3

theorem word_of_digit {c : Char} (h : '0' ≤ c ∧ c ≤ '9') : WordChar c := .inr (.inr (.inl h))

/-! ## Runs -/

theorem takeWhile_run {α : Type} (p : α → Bool) (w r : List α) (hw : ∀ c ∈ w, p c = true) (hr : ∀ c t, r = c :: t → p c = false) :
    (w ++ r).takeWhile p = w ∧ (w ++ r).dropWhile p = r := by
  induction w with
  | nil =>
    cases r with
    | nil => exact ⟨rfl, rfl⟩
    | cons c t => simp [hr c t rfl]
  | cons a w ih =>
    have h1 := ih (fun c hc => hw c (List.mem_cons_of_mem _ hc))
    simp [hw a List.mem_cons_self, h1.1, h1.2]

theorem reWordAt_run {w r : List Char} (hw : Word w) (hr : NotNext WordChar r) : reWordAt (w ++ r) = some (w, r) := by
  have h := takeWhile_run reWord w r (fun c hc => (reWord_iff c).mpr (hw.2 c hc)) (fun c t e => by
    cases h2 : reWord c with
    | false => rfl
    | true => exact absurd ((reWord_iff c).mp h2) (hr c t e))
  unfold reWordAt
  rw [h.1, h.2]
  cases w with
  | nil => exact absurd rfl hw.1
  | cons a w => rfl

theorem reSpacesAt_run {s r : List Char} (hs : Gap s) (hr : NotNext SpaceChar r) : reSpacesAt (s ++ r) = some r := by
  have h := takeWhile_run reSpace s r (fun c hc => (reSpace_iff c).mpr (hs.2 c hc)) (fun c t e => by
    cases h2 : reSpace c with
    | false => rfl
    | true => exact absurd ((reSpace_iff c).mp h2) (hr c t e))
  unfold reSpacesAt
  rw [h.1, h.2]
  cases s with
  | nil => exact absurd rfl hs.1
  | cons a w => rfl

theorem notNext_append_of_ne {p : Char → Prop} {w r : List Char} (hne : w ≠ []) (hw : ∀ c ∈ w, ¬ p c) : NotNext p (w ++ r) := by
  intro c t e
  cases w with
  | nil => exact absurd rfl hne
  | cons a w =>
    cases e
    exact hw c List.mem_cons_self

theorem notSpace_word {w : List Char} (hw : Word w) (r : List Char) : NotNext SpaceChar (w ++ r) :=
  notNext_append_of_ne hw.1 (fun c hc hs => by
    have := (reWord_iff c).mpr (hw.2 c hc)
    rw [not_word_of_space hs] at this
    cases this)

theorem notWord_gap {s : List Char} (hs : Gap s) (r : List Char) : NotNext WordChar (s ++ r) :=
  notNext_append_of_ne hs.1 (fun c hc hw => by
    have := (reWord_iff c).mpr hw
    rw [not_word_of_space (hs.2 c hc)] at this
    cases this)

theorem reWordsAt_zero {w r : List Char} (hw : Word w) (hr : NotNext WordChar r) : reWordsAt 0 (w ++ r) = some ([w], r) := by
  simp [reWordsAt, reWordAt_run hw hr]

theorem reWordsAt_succ {n : Nat} {w s l : List Char} {ws : List (List Char)} {r : List Char} (hw : Word w) (hs : Gap s)
    (hl : NotNext SpaceChar l) (h : reWordsAt n l = some (ws, r)) : reWordsAt (n + 1) (w ++ (s ++ l)) = some (w :: ws, r) := by
  simp [reWordsAt, reWordAt_run hw (notWord_gap hs l), reSpacesAt_run hs hl, h]

theorem reWordsAt_nonword (n : Nat) (c : Char) (l : List Char) (hc : reWord c = false) : reWordsAt n (c :: l) = none := by
  have : reWordAt (c :: l) = none := by simp [reWordAt, hc]
  cases n with
  | zero => simp [reWordsAt, this]
  | succ n => simp [reWordsAt, this]

theorem reSearch_skip (n : Nat) (pre l : List Char) (h : ∀ c ∈ pre, reWord c = false) : reSearch n (pre ++ l) = reSearch n l := by
  induction pre with
  | nil => rfl
  | cons c pre ih =>
    rw [List.cons_append, reSearch, reWordsAt_nonword n c _ (h c List.mem_cons_self)]
    exact ih (fun d hd => h d (List.mem_cons_of_mem _ hd))

theorem reSearch_nonword (n : Nat) (l : List Char) (h : ∀ c ∈ l, reWord c = false) : reSearch n l = none := by
  have := reSearch_skip n l [] h
  rw [List.append_nil] at this
  rw [this]; rfl

theorem reSearch_found {n : Nat} {w l : List Char} {r : List (List Char) × List Char} (hw : Word w) (h : reWordsAt n (w ++ l) = some r) :
    reSearch n (w ++ l) = some r := by
  cases w with
  | nil => exact absurd rfl hw.1
  | cons a w => rw [List.cons_append] at h ⊢; rw [reSearch, h]

theorem margin_nonword {m : List Char} (h : Margin m) : ∀ c ∈ m, reWord c = false := fun c hc => not_word_of_space (h c hc)

theorem brace_nonword : reWord '{' = false ∧ reWord '}' = false := by decide

/-! ## Numbers -/

theorem ofDigits_dec (ds : List Char) (h : ∀ c ∈ ds, '0' ≤ c ∧ c ≤ '9') : ∀ acc,
    ofDigits 10 ds acc = some (ds.foldl (fun n c => 10 * n + (c.toNat - '0'.toNat)) acc) := by
  induction ds with
  | nil => intro acc; rfl
  | cons c ds ih =>
    intro acc
    have hc := h c List.mem_cons_self
    simp only [char_le_iff, Char.reduceToNat] at hc
    have hv : digitVal c = c.toNat - 48 := by
      simp only [digitVal, Nat.ble_eq, Bool.and_eq_true, hc, and_self, if_true]
    have hlt : digitVal c < 10 := by omega
    rw [ofDigits, if_pos hlt, ih (fun d hd => h d (List.mem_cons_of_mem _ hd)), List.foldl_cons, hv]
    congr 2
    simp only [Char.reduceToNat]
    omega

theorem ofDigits1_dec {ds : List Char} {n : Nat} (h : Decimal ds n) : ofDigits1 10 ds = some n := by
  obtain ⟨hne, hd, rfl⟩ := h
  unfold ofDigits1
  cases ds with
  | nil => exact absurd rfl hne
  | cons c ds => exact ofDigits_dec _ hd 0

theorem ofDigits_hex (ds : List Char) (h : ∀ c ∈ ds, HexDigit c) : ∀ acc,
    ofDigits 16 ds acc = some (ds.foldl (fun n c => 16 * n + hexDigit c) acc) := by
  induction ds with
  | nil => intro acc; rfl
  | cons c ds ih =>
    intro acc
    have hc := h c List.mem_cons_self
    simp only [HexDigit, char_le_iff, Char.reduceToNat] at hc
    have hv : digitVal c = hexDigit c ∧ digitVal c < 16 := by
      unfold digitVal hexDigit
      simp only [Nat.ble_eq, Bool.and_eq_true, char_le_iff, Char.reduceToNat]
      rcases hc with hc | hc | hc
      · rw [if_pos hc, if_pos hc]; omega
      · rw [if_neg (by omega), if_pos hc, if_neg (by omega), if_pos hc]; omega
      · rw [if_neg (by omega), if_neg (by omega), if_pos hc, if_neg (by omega), if_neg (by omega)]; omega
    rw [ofDigits, if_pos hv.2, ih (fun d hd => h d (List.mem_cons_of_mem _ hd)), List.foldl_cons, hv.1, Nat.mul_comm]

theorem ofDigits_small {b : Nat} (hb : b ≤ 10) (ds : List Char) (h : ∀ c ∈ ds, '0' ≤ c ∧ c.toNat < 48 + b) : ∀ acc,
    ofDigits b ds acc = some (ds.foldl (fun n c => b * n + (c.toNat - '0'.toNat)) acc) := by
  induction ds with
  | nil => intro acc; rfl
  | cons c ds ih =>
    intro acc
    have hc := h c List.mem_cons_self
    simp only [char_le_iff, Char.reduceToNat] at hc
    have h9 : c.toNat ≤ 57 := by omega
    have hv : digitVal c = c.toNat - 48 := by
      simp only [digitVal, Nat.ble_eq, Bool.and_eq_true, hc, h9, and_self, if_true]
    have hlt : digitVal c < b := by omega
    rw [ofDigits, if_pos hlt, ih (fun d hd => h d (List.mem_cons_of_mem _ hd)), List.foldl_cons, hv, Nat.mul_comm]
    rfl

theorem ofDigits_some {b : Nat} : ∀ {ds : List Char} {acc n : Nat}, ofDigits b ds acc = some n → ∀ c ∈ ds, digitVal c < b
  | [], _, _, _ => by simp
  | c :: ds, acc, n, h => by
    unfold ofDigits at h
    split at h
    · rename_i hc
      intro d hd
      rcases List.mem_cons.mp hd with rfl | hd
      · exact hc
      · exact ofDigits_some h d hd
    · cases h

theorem ofDigits1_some {b : Nat} {ds : List Char} {n : Nat} (h : ofDigits1 b ds = some n) : ds ≠ [] ∧ (∀ c ∈ ds, digitVal c < b) ∧ ofDigits b ds 0 = some n := by
  unfold ofDigits1 at h
  cases ds with
  | nil => cases h
  | cons c ds => exact ⟨by simp, ofDigits_some h, h⟩

theorem digitVal_hex {c : Char} (h : digitVal c < 16) : HexDigit c := by
  unfold digitVal at h
  simp only [Nat.ble_eq, Bool.and_eq_true] at h
  simp only [HexDigit, char_le_iff, Char.reduceToNat]
  split at h
  · omega
  · split at h
    · omega
    · split at h
      · omega
      · omega

theorem digitVal_small {c : Char} {b : Nat} (hb : b ≤ 10) (h : digitVal c < b) : '0' ≤ c ∧ c.toNat < 48 + b := by
  unfold digitVal at h
  simp only [Nat.ble_eq, Bool.and_eq_true] at h
  simp only [char_le_iff, Char.reduceToNat]
  split at h
  · omega
  · split at h
    · omega
    · split at h
      · omega
      · omega

theorem ofDigits1_small {b : Nat} (hb : b ≤ 10) (ds : List Char) (n : Nat) :
    ofDigits1 b ds = some n ↔ ds ≠ [] ∧ (∀ c ∈ ds, '0' ≤ c ∧ c.toNat < 48 + b) ∧ n = digitsValue b ds := by
  constructor
  · intro h
    obtain ⟨h1, h2, h3⟩ := ofDigits1_some h
    have h4 := fun c hc => digitVal_small hb (h2 c hc)
    rw [ofDigits_small hb ds h4] at h3
    exact ⟨h1, h4, (Option.some.inj h3).symm⟩
  · rintro ⟨h1, h2, rfl⟩
    unfold ofDigits1
    cases ds with
    | nil => exact absurd rfl h1
    | cons c ds => exact ofDigits_small hb _ h2 0

theorem ofDigits1_hex (ds : List Char) (n : Nat) :
    ofDigits1 16 ds = some n ↔ ds ≠ [] ∧ (∀ c ∈ ds, HexDigit c) ∧ n = ds.foldl (fun n c => 16 * n + hexDigit c) 0 := by
  constructor
  · intro h
    obtain ⟨h1, h2, h3⟩ := ofDigits1_some h
    have h4 := fun c hc => digitVal_hex (h2 c hc)
    rw [ofDigits_hex ds h4] at h3
    exact ⟨h1, h4, (Option.some.inj h3).symm⟩
  · rintro ⟨h1, h2, rfl⟩
    unfold ofDigits1
    cases ds with
    | nil => exact absurd rfl h1
    | cons c ds => exact ofDigits_hex _ h2 0

theorem octal_iff (c : Char) : ('0' ≤ c ∧ c ≤ '7') ↔ ('0' ≤ c ∧ c.toNat < 48 + 8) := by
  simp only [char_le_iff, Char.reduceToNat]; omega

theorem binary_iff (c : Char) : (c = '0' ∨ c = '1') ↔ ('0' ≤ c ∧ c.toNat < 48 + 2) := by
  simp only [char_le_iff, char_eq_iff, Char.reduceToNat]; omega

theorem decimal_iff (c : Char) : ('0' ≤ c ∧ c ≤ '9') ↔ ('0' ≤ c ∧ c.toNat < 48 + 10) := by
  simp only [char_le_iff, Char.reduceToNat]; omega

theorem beq_char (c d : Char) : Nat.beq c.toNat d.toNat = true ↔ c = d := by rw [Nat.beq_eq, char_eq_iff]

/-- The base of a number by its prefix. -/
theorem atoi0_cons (x : Char) (l : List Char) : atoi0 ('0' :: x :: l) =
    match (if x = 'x' ∨ x = 'X' then ofDigits1 16 l else if x = 'o' ∨ x = 'O' then ofDigits1 8 l else if x = 'b' ∨ x = 'B' then ofDigits1 2 l
      else ofDigits1 8 (x :: l)) with
    | some n => .ok n
    | none => .error .valueError := by
  simp only [atoi0, Bool.or_eq_true, Nat.beq_eq, char_eq_iff, Char.reduceToNat, if_true]
  generalize (if x.toNat = 120 ∨ x.toNat = 88 then _ else _ : Option Nat) = r
  cases r <;> rfl

theorem atoi0_ok (r : Option Nat) (n : Nat) : (match r with | some n => (.ok n : Py Nat) | none => .error .valueError) = .ok n ↔ r = some n := by
  cases r with
  | none => simp
  | some m => simp

/-- `string.atoi(w, 0)` reads exactly the numerals. -/
theorem atoi0_iff (w : List Char) (n : Nat) : atoi0 w = .ok n ↔ Numeral w n := by
  match w with
  | [] =>
    constructor
    · intro h; cases h
    · intro h
      cases h with
      | dec ds n hd hz => exact absurd rfl hd.1
  | [c] =>
    have e : atoi0 [c] = match ofDigits1 10 [c] with | some n => .ok n | none => .error .valueError := rfl
    rw [e, atoi0_ok, ofDigits1_small (by omega)]
    constructor
    · rintro ⟨h1, h2, rfl⟩
      by_cases hc : c = '0'
      · subst hc; exact .zero
      · exact .dec _ _ ⟨h1, fun d hd => (decimal_iff d).mpr (h2 d hd), rfl⟩ (by simpa using hc)
    · intro h
      cases h with
      | zero => exact ⟨by simp, by decide, rfl⟩
      | dec ds n hd hz => exact ⟨hd.1, fun d hdm => (decimal_iff d).mp (hd.2.1 d hdm), hd.2.2⟩
      | oct ds hne hd => exact absurd rfl hne
  | c :: x :: l =>
    by_cases hc : c = '0'
    · subst hc
      rw [atoi0_cons, atoi0_ok]
      constructor
      · intro h
        split at h
        · rename_i hx; obtain ⟨h1, h2, rfl⟩ := (ofDigits1_hex l n).mp h; exact .hex x l hx h1 h2
        · split at h
          · rename_i hx; obtain ⟨h1, h2, rfl⟩ := (ofDigits1_small (by omega) l n).mp h
            exact .oct' x l hx h1 (fun c hc => (octal_iff c).mpr (h2 c hc))
          · split at h
            · rename_i hx; obtain ⟨h1, h2, rfl⟩ := (ofDigits1_small (by omega) l n).mp h
              exact .bin x l hx h1 (fun c hc => (binary_iff c).mpr (h2 c hc))
            · obtain ⟨h1, h2, rfl⟩ := (ofDigits1_small (by omega) (x :: l) n).mp h
              exact .oct (x :: l) h1 (fun c hc => (octal_iff c).mpr (h2 c hc))
      · intro h
        cases h with
        | dec ds n hd hz => exact absurd rfl hz
        | hex x ds hx hne hd => rw [if_pos hx]; exact (ofDigits1_hex l _).mpr ⟨hne, hd, rfl⟩
        | oct ds hne hd =>
          have hx := hd x List.mem_cons_self
          have k : ∀ y : Char, 56 ≤ y.toNat → x ≠ y := by
            rintro y hy rfl
            simp only [char_le_iff, Char.reduceToNat] at hx; omega
          rw [if_neg (by rintro (h | h) <;> exact k _ (by decide) h), if_neg (by rintro (h | h) <;> exact k _ (by decide) h),
            if_neg (by rintro (h | h) <;> exact k _ (by decide) h)]
          exact (ofDigits1_small (by omega) _ _).mpr ⟨hne, fun c hc => (octal_iff c).mp (hd c hc), rfl⟩
        | oct' x ds hx hne hd =>
          rw [if_neg (by rcases hx with rfl | rfl <;> decide), if_pos hx]
          exact (ofDigits1_small (by omega) _ _).mpr ⟨hne, fun c hc => (octal_iff c).mp (hd c hc), rfl⟩
        | bin x ds hx hne hd =>
          rw [if_neg (by rcases hx with rfl | rfl <;> decide), if_neg (by rcases hx with rfl | rfl <;> decide), if_pos hx]
          exact (ofDigits1_small (by omega) _ _).mpr ⟨hne, fun c hc => (binary_iff c).mp (hd c hc), rfl⟩
    · have e : atoi0 (c :: x :: l) = match ofDigits1 10 (c :: x :: l) with | some n => .ok n | none => .error .valueError := by
        have hb : Nat.beq c.toNat 48 = false := by
          cases hb : Nat.beq c.toNat 48 with
          | false => rfl
          | true => exact absurd ((beq_char c '0').mp hb) hc
        simp only [atoi0, hb, Bool.false_eq_true, if_false]
        cases ofDigits1 10 (c :: x :: l) <;> rfl
      rw [e, atoi0_ok, ofDigits1_small (by omega)]
      constructor
      · rintro ⟨h1, h2, rfl⟩
        exact .dec _ _ ⟨h1, fun d hd => (decimal_iff d).mpr (h2 d hd), rfl⟩ (by simpa using hc)
      · intro h
        cases h with
        | dec ds n hd hz => exact ⟨hd.1, fun d hdm => (decimal_iff d).mp (hd.2.1 d hdm), hd.2.2⟩
        | hex | oct | oct' | bin => exact absurd rfl hc

theorem atoi0_numeral {w : List Char} {n : Nat} (h : Numeral w n) : atoi0 w = .ok n := (atoi0_iff w n).mpr h

theorem atoi0_not_numeral {w : List Char} (h : ∀ n, ¬ Numeral w n) : atoi0 w = .error .valueError := by
  cases hr : atoi0 w with
  | ok n => exact absurd ((atoi0_iff w n).mp hr) (h n)
  | error e =>
    unfold atoi0 at hr
    simp only at hr
    split at hr
    · cases hr
    · exact hr.symm

theorem word_numeral {w : List Char} {n : Nat} (h : Numeral w n) : Word w := by
  have digit : ∀ {ds : List Char} {b : Nat}, b ≤ 10 → (∀ c ∈ ds, '0' ≤ c ∧ c.toNat < 48 + b) → ∀ c ∈ ds, WordChar c := by
    intro ds b hb hd c hc
    have := hd c hc
    refine word_of_digit ⟨this.1, ?_⟩
    rw [char_le_iff]
    simp only [Char.reduceToNat]
    omega
  have cons : ∀ {c : Char} {l : List Char}, WordChar c → (∀ d ∈ l, WordChar d) → Word (c :: l) := by
    intro c l hc hl
    refine ⟨by simp, fun d hd => ?_⟩
    rcases List.mem_cons.mp hd with rfl | hd
    · exact hc
    · exact hl d hd
  have zero : WordChar '0' := .inr (.inr (.inl (by decide)))
  cases h with
  | zero => exact cons zero (by simp)
  | dec ds n hd hz => exact ⟨hd.1, fun c hc => word_of_digit (hd.2.1 c hc)⟩
  | hex x ds hx hne hd =>
    refine cons zero (cons (by rcases hx with rfl | rfl <;> (unfold WordChar; decide)) ?_).2
    intro c hc
    rcases hd c hc with h | h | h
    · exact word_of_digit h
    · refine .inl ⟨h.1, ?_⟩
      have := h.2
      rw [char_le_iff] at this ⊢
      simp only [Char.reduceToNat] at this ⊢
      omega
    · refine .inr (.inl ⟨h.1, ?_⟩)
      have := h.2
      rw [char_le_iff] at this ⊢
      simp only [Char.reduceToNat] at this ⊢
      omega
  | oct ds hne hd => exact cons zero (digit (b := 8) (by omega) (fun c hc => (octal_iff c).mp (hd c hc)))
  | oct' x ds hx hne hd =>
    exact cons zero (cons (by rcases hx with rfl | rfl <;> (unfold WordChar; decide)) (digit (b := 8) (by omega) (fun c hc => (octal_iff c).mp (hd c hc)))).2
  | bin x ds hx hne hd =>
    exact cons zero (cons (by rcases hx with rfl | rfl <;> (unfold WordChar; decide)) (digit (b := 2) (by omega) (fun c hc => (binary_iff c).mp (hd c hc)))).2

theorem word_of_all {w : List Char} (h : (!w.isEmpty && w.all reWord) = true) : Word w := by
  simp only [Bool.and_eq_true, Bool.not_eq_true', List.isEmpty_eq_false_iff, List.all_eq_true] at h
  exact ⟨h.1, fun c hc => (reWord_iff c).mp (h.2 c hc)⟩

/-! ## Declarations -/

theorem freq_word (f : Frequency) : Word (freqWord f).toList ∧ freqOfWord (freqWord f).toList = some f := by
  cases f <;> exact ⟨word_of_all (by decide +kernel), by decide +kernel⟩
theorem trust_word (t : Trust) : Word (trustWord t).toList ∧ trustOfWord (trustWord t).toList = some t := by
  cases t <;> exact ⟨word_of_all (by decide +kernel), by decide +kernel⟩
theorem encoding_word (e : Encoding) : Word (encodingWord e).toList ∧ encodingOfWord (encodingWord e).toList = some e := by
  cases e <;> exact ⟨word_of_all (by decide +kernel), by decide +kernel⟩
theorem deprecation_word (d : Deprecation) :
    Word (deprecationWord d).toList ∧ deprecationOfWord (some (deprecationWord d).toList) = some d := by
  cases d <;> exact ⟨word_of_all (by decide +kernel), by decide +kernel⟩

theorem plain_word {t : MsgType} {ty : String} {n : Nat} (h : plainType t = some (ty, n)) :
    Word ty.toList ∧ typeOfWord ty.toList = some t ∧ sizeof t = some n ∧ t ≠ .fixed ∧ t ≠ .variable := by
  cases t <;> simp only [plainType, Option.some.injEq, Prod.mk.injEq, reduceCtorEq] at h <;>
    (obtain ⟨rfl, rfl⟩ := h; exact ⟨word_of_all (by decide +kernel), by decide +kernel, rfl, by simp, by simp⟩)

theorem sized_word {t : MsgType} {ty : String} (h : sizedType t = some ty) :
    Word ty.toList ∧ typeOfWord ty.toList = some t ∧ (t = .fixed ∨ t = .variable) := by
  cases t <;> simp only [sizedType, Option.some.injEq, reduceCtorEq] at h <;>
    (subst h; exact ⟨word_of_all (by decide +kernel), by decide +kernel, by simp⟩)


/-! ## Matches -/

theorem takeWhile_all {α : Type} (p : α → Bool) (l : List α) : ∀ c ∈ l.takeWhile p, p c = true := by
  induction l with
  | nil => intro c hc; cases hc
  | cons a l ih =>
    intro c hc
    cases ha : p a with
    | false => simp [ha] at hc
    | true =>
      simp only [List.takeWhile_cons, ha, if_true] at hc
      rcases List.mem_cons.mp hc with rfl | hc
      · exact ha
      · exact ih c hc

theorem noWord_opt {rest : List Char} (h : NoWord rest) : reOptWord rest = none := by
  unfold reOptWord
  cases hs : reSpacesAt rest with
  | none => rfl
  | some r =>
    have hr : rest = rest.takeWhile reSpace ++ r ∧ Margin (rest.takeWhile reSpace) := by
      unfold reSpacesAt at hs
      have h1 := List.takeWhile_append_dropWhile (p := reSpace) (l := rest)
      refine ⟨?_, fun c hc => (reSpace_iff c).mp (takeWhile_all reSpace rest c hc)⟩
      revert hs
      split
      · intro hs; cases hs
      · intro hs; cases hs; exact h1.symm
    have h2 := h _ r hr.2 hr.1
    have h3 : reWordAt r = none := by
      unfold reWordAt
      cases r with
      | nil => rfl
      | cons c t =>
        have : reWord c = false := by
          cases h4 : reWord c with
          | false => rfl
          | true => exact absurd ((reWord_iff c).mp h4) (h2 c t rfl)
        simp [this]
    simp [h3]

theorem noWord_next {rest : List Char} (h : NoWord rest) : NotNext WordChar rest := h [] rest (by intro c hc; cases hc) rfl

theorem optWord_found {s w r : List Char} (hs : Gap s) (hw : Word w) (hr : NotNext WordChar r) : reOptWord (s ++ (w ++ r)) = some w := by
  simp [reOptWord, reSpacesAt_run hs (notSpace_word hw r), reWordAt_run hw hr]

theorem notSpace_digits {ds : List Char} {n : Nat} (h : Decimal ds n) (r : List Char) : NotNext SpaceChar (ds ++ r) :=
  notSpace_word ⟨h.1, fun c hc => word_of_digit (h.2.1 c hc)⟩ r

theorem optDigits_found {s ds r : List Char} {n : Nat} (hs : Gap s) (hd : Decimal ds n) (hr : NotNext (fun c => '0' ≤ c ∧ c ≤ '9') r) :
    reOptDigits (s ++ (ds ++ r)) = some ds := by
  have h := takeWhile_run reDigit ds r (fun c hc => (reDigit_iff c).mpr (hd.2.1 c hc)) (fun c t e => by
    cases h2 : reDigit c with
    | false => rfl
    | true => exact absurd ((reDigit_iff c).mp h2) (hr c t e))
  simp only [reOptDigits, reSpacesAt_run hs (notSpace_digits hd r), Option.bind_eq_bind, Option.bind_some, h.1]
  cases ds with
  | nil => exact absurd rfl hd.1
  | cons a w => rfl

theorem intOfGroup_dec {ds : List Char} {n : Nat} (hd : Decimal ds n) : intOfGroup (some ds) = .ok n := by
  simp [intOfGroup, ofDigits1_dec hd]

theorem matchPair_found {pre name s₁ w rest : List Char} (hpre : ∀ c ∈ pre, reWord c = false) (hn : Word name) (hs : Gap s₁) (hw : Word w)
    (hr : NotNext WordChar rest) : matchPair (pre ++ (name ++ (s₁ ++ (w ++ rest)))) = some ([name, w], reOptDigits rest) := by
  unfold matchPair
  rw [reSearch_skip 1 pre _ hpre, reSearch_found hn (reWordsAt_succ hn hs (notSpace_word hw rest) (reWordsAt_zero hw hr))]
  rfl

theorem matchHeader_found {pre a s₁ b s₂ c s₃ d s₄ e rest : List Char} (hpre : ∀ x ∈ pre, reWord x = false) (ha : Word a) (h₁ : Gap s₁)
    (hb : Word b) (h₂ : Gap s₂) (hc : Word c) (h₃ : Gap s₃) (hd : Word d) (h₄ : Gap s₄) (he : Word e) (hr : NotNext WordChar rest) :
    matchMessageHeader (pre ++ (a ++ (s₁ ++ (b ++ (s₂ ++ (c ++ (s₃ ++ (d ++ (s₄ ++ (e ++ rest)))))))))) =
      some ([a, b, c, d, e], reOptWord rest) := by
  unfold matchMessageHeader
  rw [reSearch_skip 4 pre _ hpre, reSearch_found ha (reWordsAt_succ ha h₁ (notSpace_word hb _) (reWordsAt_succ hb h₂ (notSpace_word hc _)
    (reWordsAt_succ hc h₃ (notSpace_word hd _) (reWordsAt_succ hd h₄ (notSpace_word he _) (reWordsAt_zero he hr)))))]
  rfl

/-! ## Lines -/

theorem hasOpen_iff (l : List Char) : hasOpen l = true ↔ '{' ∈ l := by
  unfold hasOpen
  rw [List.any_eq_true]
  constructor
  · rintro ⟨c, hc, h⟩
    have : c = '{' := (char_eq_iff c '{').mpr (by simpa [Nat.beq_eq] using h)
    rwa [this] at hc
  · intro h; exact ⟨_, h, by decide⟩

theorem hasClose_iff (l : List Char) : hasClose l = true ↔ '}' ∈ l := by
  unfold hasClose
  rw [List.any_eq_true]
  constructor
  · rintro ⟨c, hc, h⟩
    have : c = '}' := (char_eq_iff c '}').mpr (by simpa [Nat.beq_eq] using h)
    rwa [this] at hc
  · intro h; exact ⟨_, h, by decide⟩

theorem hasOpen_false {l : List Char} (h : '{' ∉ l) : hasOpen l = false := by
  cases h2 : hasOpen l with
  | false => rfl
  | true => exact absurd ((hasOpen_iff l).mp h2) h

theorem hasClose_false {l : List Char} (h : '}' ∉ l) : hasClose l = false := by
  cases h2 : hasClose l with
  | false => rfl
  | true => exact absurd ((hasClose_iff l).mp h2) h

theorem margin_drop {m r : List Char} (hm : Margin m) (hr : NotNext SpaceChar r) : (m ++ r).dropWhile reSpace = r :=
  (takeWhile_run reSpace m r (fun c hc => (reSpace_iff c).mpr (hm c hc)) (fun c t e => by
    cases h2 : reSpace c with
    | false => rfl
    | true => exact absurd ((reSpace_iff c).mp h2) (hr c t e))).2

theorem margin_comment {m r : List Char} (hm : Margin m) : isComment (m ++ '/' :: '/' :: r) = true := by
  unfold isComment
  rw [margin_drop hm (by rintro c t h; cases h; unfold SpaceChar; decide)]
  rfl

theorem not_comment {m : List Char} {c : Char} {r : List Char} (hm : Margin m) (hc : ¬ SpaceChar c) (hs : c ≠ '/') :
    isComment (m ++ c :: r) = false := by
  unfold isComment
  rw [margin_drop hm (by rintro c t h; cases h; exact hc)]
  cases r with
  | nil => rfl
  | cons d r =>
    have : Nat.beq c.toNat 47 = false := by
      cases hb : Nat.beq c.toNat 47 with
      | false => rfl
      | true => exact absurd ((char_eq_iff c '/').mpr (by simpa [Nat.beq_eq] using hb)) hs
    simp [this]

theorem blank_not_comment {m : List Char} (hm : Margin m) : isComment m = false := by
  unfold isComment
  have := margin_drop (r := []) hm (by rintro c t h; cases h)
  rw [List.append_nil] at this
  rw [this]

theorem version_prefix (l : List Char) : "version".toList.isPrefixOf l = true ↔ "version".toList <+: l := List.isPrefixOf_iff_prefix

theorem matchVersion_none {l : List Char} (h : ¬ "version".toList <+: l) : matchVersion l = none := by
  unfold matchVersion
  have : "version".toList.isPrefixOf l = false := by
    cases h2 : "version".toList.isPrefixOf l with
    | false => rfl
    | true => exact absurd ((version_prefix l).mp h2) h
  rw [this]; rfl

theorem version_head : "version".toList = 'v' :: "ersion".toList := by decide +kernel

theorem not_version {l : List Char} (h : NotNext (fun c => c = 'v') l) : ¬ "version".toList <+: l := by
  rw [version_head]
  rintro ⟨t, rfl⟩
  exact h 'v' _ rfl rfl

theorem not_version_margin {m : List Char} {c : Char} {r : List Char} (hm : Margin m) (hc : c ≠ 'v') : ¬ "version".toList <+: m ++ c :: r := by
  apply not_version
  rintro d t e rfl
  cases m with
  | nil => cases e; exact hc rfl
  | cons a m =>
    cases e
    have := hm 'v' List.mem_cons_self
    unfold SpaceChar at this
    revert this; decide

theorem not_version_gap {m r : List Char} (hm : Gap m) : ¬ "version".toList <+: m ++ r := by
  apply not_version
  rintro d t e rfl
  cases m with
  | nil => exact hm.1 rfl
  | cons a m =>
    cases e
    have := hm.2 'v' List.mem_cons_self
    unfold SpaceChar at this
    revert this; decide

/-- A line that is no comment and no version. -/
theorem parseLine_plain (v : PyVersion) (st : ParserState) (l : List Char) (hc : isComment l = false) (hv : matchVersion l = none) :
    parseLine v st l = (do
      let st ← stepMessage v l (openBrace l st)
      let st ← stepBlock l st
      let st ← stepData l st
      .ok (closeBrace l st)) := by
  have h : readVersion l st = .ok st := by
    unfold readVersion
    rw [hv]
    cases st.version <;> rfl
  unfold parseLine
  rw [hc, h]
  rfl

theorem no_match_message {l : List Char} (h : ∀ c ∈ l, reWord c = false) : matchMessageHeader l = none := by
  unfold matchMessageHeader; rw [reSearch_nonword 4 l h]; rfl
theorem no_match_pair {l : List Char} (h : ∀ c ∈ l, reWord c = false) : matchPair l = none := by
  unfold matchPair; rw [reSearch_nonword 1 l h]; rfl

/-- A line without words only moves the state. -/
theorem steps_nonword (v : PyVersion) (st : ParserState) (l : List Char) (h : ∀ c ∈ l, reWord c = false) :
    (do
      let st ← stepMessage v l st
      let st ← stepBlock l st
      let st ← stepData l st
      (.ok (closeBrace l st) : Py ParserState)) = .ok (closeBrace l st) := by
  have h1 : ∀ st, stepMessage v l st = .ok st := by
    intro st; unfold stepMessage; rw [no_match_message h]; split <;> rfl
  have h2 : ∀ st, stepBlock l st = .ok st := by
    intro st; unfold stepBlock; rw [no_match_pair h]; split <;> rfl
  have h3 : ∀ st, stepData l st = .ok st := by
    intro st; unfold stepData; rw [no_match_pair h]; split <;> rfl
  rw [h1]
  show (stepBlock l st >>= fun st => stepData l st >>= fun st => .ok (closeBrace l st)) = _
  rw [h2]
  show (stepData l st >>= fun st => .ok (closeBrace l st)) = _
  rw [h3]
  rfl

theorem steps_chain {v : PyVersion} {l : List Char} {a b c d : ParserState} (h₁ : stepMessage v l a = .ok b) (h₂ : stepBlock l b = .ok c)
    (h₃ : stepData l c = .ok d) :
    (do
      let st ← stepMessage v l a
      let st ← stepBlock l st
      let st ← stepData l st
      (.ok (closeBrace l st) : Py ParserState)) = .ok (closeBrace l d) := by
  simp only [h₁, h₂, h₃, bind, Except.bind]

theorem parseLine_filler (v : PyVersion) (st : ParserState) {l : List Char} (h : Filler l) : parseLine v st l = .ok st := by
  rcases h with hm | ⟨m, r, hm, rfl⟩
  · have hno : ∀ x, ¬ SpaceChar x → x ∉ l := fun x hx hl => hx (hm x hl)
    have ho := hasOpen_false (hno '{' (by unfold SpaceChar; decide))
    have hc := hasClose_false (hno '}' (by unfold SpaceChar; decide))
    rw [parseLine_plain v st l (blank_not_comment hm) (matchVersion_none (by
      apply not_version
      rintro d t rfl rfl
      have := hm 'v' List.mem_cons_self
      unfold SpaceChar at this
      revert this; decide)), steps_nonword v _ l (margin_nonword hm)]
    simp [openBrace, closeBrace, ho, hc]
  · unfold parseLine; rw [margin_comment hm]; rfl

theorem parseLines_fillers (v : PyVersion) (st : ParserState) (fs rest : List (List Char)) (h : ∀ f ∈ fs, Filler f) :
    parseLines v st (fs ++ rest) = parseLines v st rest := by
  induction fs with
  | nil => rfl
  | cons f fs ih =>
    rw [List.cons_append, parseLines, parseLine_filler v st (h f List.mem_cons_self)]
    exact ih (fun g hg => h g (List.mem_cons_of_mem _ hg))

theorem brace_line {m m' : List Char} {b : Char} (hm : Margin m) (hm' : Margin m') (hb : reWord b = false) :
    ∀ c ∈ m ++ b :: m', reWord c = false := by
  intro c hc
  rcases List.mem_append.mp hc with hc | hc
  · exact margin_nonword hm c hc
  · rcases List.mem_cons.mp hc with rfl | hc
    · exact hb
    · exact margin_nonword hm' c hc

theorem brace_not_in {m m' : List Char} {a b : Char} (hm : Margin m) (hm' : Margin m') (ha : ¬ SpaceChar a) (hab : a ≠ b) : a ∉ m ++ b :: m' := by
  intro hc
  rcases List.mem_append.mp hc with hc | hc
  · exact ha (hm a hc)
  · rcases List.mem_cons.mp hc with rfl | hc
    · exact hab rfl
    · exact ha (hm' a hc)

theorem parseLine_open (v : PyVersion) (ver : Option (List Char)) (s : Int) (ts : List RawTemplate) {l : List Char} (h : OpenLine l) :
    parseLine v ⟨ver, s, ts⟩ l = .ok ⟨ver, s + 1, ts⟩ := by
  obtain ⟨m, m', hm, hm', rfl⟩ := h
  have ho := (hasOpen_iff (m ++ '{' :: m')).mpr (by simp)
  have hc := hasClose_false (brace_not_in hm hm' (a := '}') (b := '{') (by unfold SpaceChar; decide) (by decide))
  rw [parseLine_plain v _ _ (not_comment hm (by unfold SpaceChar; decide) (by decide))
      (matchVersion_none (not_version_margin hm (by decide))),
    steps_nonword v _ _ (brace_line hm hm' (by decide))]
  simp [openBrace, closeBrace, ho, hc]

theorem parseLine_close (v : PyVersion) (ver : Option (List Char)) (s : Int) (ts : List RawTemplate) {l : List Char} (h : CloseLine l) :
    parseLine v ⟨ver, s, ts⟩ l = .ok ⟨ver, s - 1, ts⟩ := by
  obtain ⟨m, m', hm, hm', rfl⟩ := h
  have ho := hasOpen_false (brace_not_in hm hm' (a := '{') (b := '}') (by unfold SpaceChar; decide) (by decide))
  have hc := (hasClose_iff (m ++ '}' :: m')).mpr (by simp)
  rw [parseLine_plain v _ _ (not_comment hm (by unfold SpaceChar; decide) (by decide))
      (matchVersion_none (not_version_margin hm (by decide))),
    steps_nonword v _ _ (brace_line hm hm' (by decide))]
  simp [openBrace, closeBrace, ho, hc]

/-! ## Declarations: what they become -/

def rawVar (x : TVar) : RawVar := ⟨x.name, some x.type, some x.size⟩
def rawBlock (b : TBlock) : RawBlock := ⟨b.name, b.blockType, b.number, (b.vars.map rawVar).reverse⟩
def rawTemplate (hex : Bytes) (t : Template) : RawTemplate :=
  ⟨t.name, t.freq, t.msgNum, hex, t.trust, t.encoding, t.deprecation, (t.blocks.map rawBlock).reverse⟩

theorem mapM_known {α β : Type} (f : α → β) (g : β → Option α) (h : ∀ a, g (f a) = some a) (l : List α) : (l.map f).mapM g = some l := by
  induction l with
  | nil => rfl
  | cons a l ih => simp [h, ih]

theorem known_rawVar (x : TVar) : (rawVar x).known = some x := rfl
theorem known_rawBlock (b : TBlock) : (rawBlock b).known = some b := by
  simp [rawBlock, RawBlock.known, List.reverse_reverse, mapM_known rawVar RawVar.known known_rawVar]
theorem known_rawTemplate (hex : Bytes) (t : Template) (h : t.msgNumHex = []) : (rawTemplate hex t).known = some t := by
  simp only [rawTemplate, RawTemplate.known, List.reverse_reverse, mapM_known rawBlock RawBlock.known known_rawBlock, Option.bind_eq_bind,
    Option.bind_some]
  rw [← h]

theorem mem_brace_left {m r : List Char} {b : Char} : b ∈ m ++ b :: r := by simp

theorem var_line (v : PyVersion) (ver : Option (List Char)) (t : RawTemplate) (b : RawBlock) (bs : List RawBlock) (ts : List RawTemplate)
    {l : List Char} {x : TVar} (h : VarLine l x) :
    parseLine v ⟨ver, 2, { t with blocks := b :: bs } :: ts⟩ l =
      .ok ⟨ver, 2, { t with blocks := { b with vars := rawVar x :: b.vars } :: bs } :: ts⟩ := by
  obtain ⟨m, m', name, s₁, rest, hm, hm', hname, hs₁, hx, hclose, hl⟩ := h
  have hpre : ∀ c ∈ m ++ '{' :: m', reWord c = false := brace_line hm hm' (by decide)
  have key : ∃ tail g, l = m ++ '{' :: tail ∧ '}' ∈ l ∧ matchPair l = some g ∧ startNewVar g = .ok (rawVar x) := by
    rcases hl with ⟨ty, n, hty, hsz, hnext, rfl⟩ | ⟨ty, s₂, ds, hty, hs₂, hds, hpos, hnext, rfl⟩
    · obtain ⟨h1, h2, h3, h4, h5⟩ := plain_word hty
      refine ⟨m' ++ (name ++ (s₁ ++ (ty.toList ++ rest))), ([name, ty.toList], reOptDigits rest), by simp, by simp [hclose], ?_, ?_⟩
      · have := matchPair_found hpre hname hs₁ h1 hnext
        rw [← this]; simp
      · simp only [startNewVar, h2]
        have : rawVar x = ⟨String.ofList name, some x.type, sizeof x.type⟩ := by rw [h3, ← hsz, ← hx]; rfl
        rw [this]
    · obtain ⟨h1, h2, h3⟩ := sized_word hty
      have hrest : reOptDigits (s₂ ++ (ds ++ rest)) = some ds := optDigits_found hs₂ hds hnext
      refine ⟨m' ++ (name ++ (s₁ ++ (ty.toList ++ (s₂ ++ (ds ++ rest))))), ([name, ty.toList], some ds), by simp, by simp [hclose], ?_, ?_⟩
      · have := matchPair_found hpre hname hs₁ h1 (notWord_gap hs₂ (ds ++ rest))
        rw [hrest] at this
        rw [← this]; simp
      · simp only [startNewVar, h2]
        have hne : x.size ≠ 0 := by omega
        rcases h3 with h3 | h3
        · simp only [h3, intOfGroup_dec hds]
          show (if x.size = 0 then _ else _) = _
          rw [if_neg hne]
          simp [rawVar, h3, hx]
        · simp only [h3, intOfGroup_dec hds]
          show (if x.size = 0 then _ else _) = _
          rw [if_neg hne]
          simp [rawVar, h3, hx]
  obtain ⟨tail, g, hl', hcl, hmatch, hnew⟩ := key
  have ho := (hasOpen_iff l).mpr (by rw [hl']; exact mem_brace_left)
  have hc := (hasClose_iff l).mpr hcl
  rw [parseLine_plain v _ _ (by rw [hl']; exact not_comment hm (by unfold SpaceChar; decide) (by decide))
      (matchVersion_none (by rw [hl']; exact not_version_margin hm (by decide)))]
  have e1 : openBrace l ⟨ver, 2, { t with blocks := b :: bs } :: ts⟩ = ⟨ver, 3, { t with blocks := b :: bs } :: ts⟩ := by
    simp [openBrace, ho]
  rw [e1]
  have e2 : stepMessage v l ⟨ver, 3, { t with blocks := b :: bs } :: ts⟩ = .ok ⟨ver, 3, { t with blocks := b :: bs } :: ts⟩ := by
    simp [stepMessage]
  have e3 : stepBlock l ⟨ver, 3, { t with blocks := b :: bs } :: ts⟩ = .ok ⟨ver, 3, { t with blocks := b :: bs } :: ts⟩ := by
    simp [stepBlock]
  have e4 : stepData l ⟨ver, 3, { t with blocks := b :: bs } :: ts⟩ =
      .ok ⟨ver, 3, { t with blocks := { b with vars := rawVar x :: b.vars } :: bs } :: ts⟩ := by
    simp only [stepData, hmatch, if_true]
    rw [hnew]
    rfl
  rw [steps_chain e2 e3 e4]
  simp [closeBrace, hc]

theorem var_lines (v : PyVersion) {ls : List (List Char)} {xs : List TVar} (h : VarLines ls xs) :
    ∀ (ver : Option (List Char)) (t : RawTemplate) (b : RawBlock) (bs : List RawBlock) (ts : List RawTemplate),
    parseLines v ⟨ver, 2, { t with blocks := b :: bs } :: ts⟩ ls =
      .ok ⟨ver, 2, { t with blocks := { b with vars := (xs.map rawVar).reverse ++ b.vars } :: bs } :: ts⟩ := by
  induction h with
  | nil => intro ver t b bs ts; rfl
  | filler l ls vs hf _ ih =>
    intro ver t b bs ts
    rw [parseLines, parseLine_filler v _ hf]
    exact ih ver t b bs ts
  | var l ls x vs hx _ ih =>
    intro ver t b bs ts
    rw [parseLines, var_line v ver t b bs ts hx]
    have := ih ver t { b with vars := rawVar x :: b.vars } bs ts
    simp only [List.map_cons, List.reverse_cons, List.append_assoc, List.singleton_append]
    exact this

theorem block_line (v : PyVersion) (ver : Option (List Char)) (t : RawTemplate) (ts : List RawTemplate) {l : List Char} {tb : TBlock}
    (h : BlockLine l tb) :
    parseLine v ⟨ver, 2, t :: ts⟩ l = .ok ⟨ver, 2, { t with blocks := ⟨tb.name, tb.blockType, tb.number, []⟩ :: t.blocks } :: ts⟩ := by
  obtain ⟨m, name, s₁, rest, hm, hname, hs₁, hn, hnb, hl⟩ := h
  have hpre := margin_nonword hm.2
  have hwS : Word "Single".toList := word_of_all (by decide +kernel)
  have hwV : Word "Variable".toList := word_of_all (by decide +kernel)
  have hwM : Word "Multiple".toList := word_of_all (by decide +kernel)
  have key : ∃ tail g, l = m ++ (name ++ tail) ∧ matchPair l = some g ∧ startNewBlock g = .ok ⟨tb.name, tb.blockType, tb.number, []⟩ := by
    rcases hl with ⟨rfl, hnext, h1, h2⟩ | ⟨rfl, hnext, h1, h2⟩ | ⟨s₂, ds, hs₂, hds, rfl, hnext, h1⟩
    · refine ⟨s₁ ++ ("Single".toList ++ rest), _, by simp, by
        have := matchPair_found hpre hname hs₁ hwS hnext
        rw [← this]; simp, ?_⟩
      rw [h1, h2, hn]; rfl
    · refine ⟨s₁ ++ ("Variable".toList ++ rest), _, by simp, by
        have := matchPair_found hpre hname hs₁ hwV hnext
        rw [← this]; simp, ?_⟩
      rw [h1, h2, hn]; rfl
    · refine ⟨s₁ ++ ("Multiple".toList ++ (s₂ ++ (ds ++ rest))), ([name, "Multiple".toList], some ds), by simp, by
        have := matchPair_found hpre hname hs₁ hwM (notWord_gap hs₂ (ds ++ rest))
        rw [optDigits_found hs₂ hds hnext] at this
        rw [← this]; simp, ?_⟩
      have e : startNewBlock ([name, "Multiple".toList], some ds) =
        (intOfGroup (some ds) >>= fun n => .ok ⟨String.ofList name, .multiple, n, []⟩) := rfl
      rw [e, intOfGroup_dec hds, h1, hn]; rfl
  obtain ⟨tail, g, hl', hmatch, hnew⟩ := key
  have ho := hasOpen_false hnb.1
  have hc := hasClose_false hnb.2
  have hcomment : isComment l = false := by
    rw [hl']
    cases name with
    | nil => exact absurd rfl hname.1
    | cons a name =>
      have ha := hname.2 a List.mem_cons_self
      refine not_comment hm.2 (fun h => ?_) (fun h => ?_)
      · have := not_space_of_word ha
        rw [(reSpace_iff a).mpr h] at this; cases this
      · rw [h] at ha; unfold WordChar at ha; revert ha; decide
  rw [parseLine_plain v _ _ hcomment (matchVersion_none (by rw [hl']; exact not_version_gap hm))]
  have e1 : openBrace l ⟨ver, 2, t :: ts⟩ = ⟨ver, 2, t :: ts⟩ := by simp [openBrace, ho]
  rw [e1]
  have e2 : stepMessage v l ⟨ver, 2, t :: ts⟩ = .ok ⟨ver, 2, t :: ts⟩ := by simp [stepMessage]
  have e3 : stepBlock l ⟨ver, 2, t :: ts⟩ = .ok ⟨ver, 2, { t with blocks := ⟨tb.name, tb.blockType, tb.number, []⟩ :: t.blocks } :: ts⟩ := by
    simp only [stepBlock, hmatch, if_true]
    rw [hnew]; rfl
  rw [steps_chain e2 e3 (by simp [stepData]; rfl)]
  simp [closeBrace, hc]

theorem block_lines (v : PyVersion) {ls : List (List Char)} {tbs : List TBlock} (h : BlockLines ls tbs) :
    ∀ (ver : Option (List Char)) (t : RawTemplate) (ts : List RawTemplate),
    parseLines v ⟨ver, 1, t :: ts⟩ ls = .ok ⟨ver, 1, { t with blocks := (tbs.map rawBlock).reverse ++ t.blocks } :: ts⟩ := by
  induction h with
  | nil => intro ver t ts; rfl
  | filler l ls tbs hf _ ih =>
    intro ver t ts
    rw [parseLines, parseLine_filler v _ hf]
    exact ih ver t ts
  | block o fs hd vs c ls tb tbs ho hfs hh hvs hc _ ih =>
    intro ver t ts
    rw [parseLines, parseLine_open v ver 1 _ ho]
    show parseLines v ⟨ver, 1 + 1, t :: ts⟩ (fs ++ hd :: (vs ++ c :: ls)) = _
    rw [parseLines_fillers v _ fs _ hfs, parseLines]
    rw [show (1 + 1 : Int) = 2 from rfl, block_line v ver t ts hh]
    show parseLines v _ (vs ++ c :: ls) = _
    rw [parseLines_append, var_lines v hvs]
    show parseLines v _ (c :: ls) = _
    rw [parseLines, parseLine_close v _ _ _ hc]
    have := ih ver { t with blocks := rawBlock tb :: t.blocks } ts
    simp only [List.map_cons, List.reverse_cons, List.append_assoc, List.singleton_append]
    rw [← this, List.append_nil]
    rfl

theorem pack_byte_ok (v : PyVersion) (n : Nat) (h : v = .v26 ∨ n < 256) : ∃ b, structPack v .big .B n = .ok b := by
  unfold structPack
  split
  · exact ⟨_, rfl⟩
  · rename_i h2
    rcases h with rfl | h
    · exact ⟨_, rfl⟩
    · exact absurd ⟨by simp [IntFmt.lo, IntFmt.signed], by simp [IntFmt.hi, IntFmt.signed, IntFmt.size]; omega⟩ h2

theorem pack_u32_ok (v : PyVersion) (n : Nat) (h : n < 2 ^ 32) : ∃ b, structPack v .big .I n = .ok b ∧ (b.getLastD 0).toNat = n % 256 := by
  have hr : (IntFmt.I).lo ≤ (n : Int) ∧ (n : Int) < (IntFmt.I).hi :=
    ⟨by simp [IntFmt.lo, IntFmt.signed], by simp [IntFmt.hi, IntFmt.signed, IntFmt.size]; omega⟩
  refine ⟨_, by unfold structPack; rw [if_pos hr], ?_⟩
  have hmod : ((n : Int) % ((2 ^ (8 * (IntFmt.I).size) : Nat) : Int)).toNat = n := by
    simp only [IntFmt.size]
    omega
  rw [hmod]
  simp [Endian.order, IntFmt.size, leBytes]

theorem numOfFreq_ok (v : PyVersion) (f : Frequency) (k n : Nat) (hd : DeclaredNumber f k n) (hv : v = .v26 ∨ n < 256) :
    ∃ b, numOfFreq v (some f) k = .ok (f, n, b) := by
  cases f with
  | fixed =>
    obtain ⟨hk, rfl⟩ := hd
    obtain ⟨b, hb, hlast⟩ := pack_u32_ok v k hk
    exact ⟨b, by simp only [numOfFreq, hb]; rw [← hlast]; rfl⟩
  | low =>
    cases hd
    obtain ⟨b, hb⟩ := pack_byte_ok v k hv
    exact ⟨_, by simp only [numOfFreq, hb]; rfl⟩
  | medium =>
    cases hd
    obtain ⟨b, hb⟩ := pack_byte_ok v k hv
    exact ⟨_, by simp only [numOfFreq, hb]; rfl⟩
  | high =>
    cases hd
    obtain ⟨b, hb⟩ := pack_byte_ok v k hv
    exact ⟨_, by simp only [numOfFreq, hb]; rfl⟩

theorem header_line (v : PyVersion) (ver : Option (List Char)) (ts : List RawTemplate) {l : List Char} {t : Template}
    (h : HeaderLine l t) (hv : v = .v26 ∨ t.msgNum < 256) :
    ∃ hex, parseLine v ⟨ver, 1, ts⟩ l = .ok ⟨ver, 1, { rawTemplate hex t with blocks := [] } :: ts⟩ := by
  obtain ⟨m, name, s₁, s₂, num, k, s₃, tr, s₄, en, rest, hm, hname, hs₁, hs₂, hnum, hs₃, hs₄, hl, hnb, hn, hdn, htr, hen, hhex, hdep⟩ := h
  have hpre := margin_nonword hm.2
  obtain ⟨hf1, hf2⟩ := freq_word t.freq
  obtain ⟨ht1, ht2⟩ := trust_word tr
  obtain ⟨he1, he2⟩ := encoding_word en
  obtain ⟨hex, hnumf⟩ := numOfFreq_ok v t.freq k t.msgNum hdn hv
  refine ⟨hex, ?_⟩
  have hd : NotNext WordChar rest ∧ deprecationOfWord (reOptWord rest) = t.deprecation := by
    rcases hdep with ⟨hno, hd⟩ | ⟨s₅, dep, rest', hs₅, rfl, hnext, hd⟩
    · exact ⟨noWord_next hno, by rw [noWord_opt hno, hd]; rfl⟩
    · obtain ⟨hd1, hd2⟩ := deprecation_word dep
      rw [List.append_assoc]
      exact ⟨notWord_gap hs₅ _, by rw [optWord_found hs₅ hd1 hnext, hd2, hd]⟩
  have hl' : l = m ++ (name ++ (s₁ ++ ((freqWord t.freq).toList ++ (s₂ ++ (num ++ (s₃ ++ ((trustWord tr).toList ++ (s₄ ++
      ((encodingWord en).toList ++ rest))))))))) := by rw [hl]; simp
  have hmatch : matchMessageHeader l = some ([name, (freqWord t.freq).toList, num, (trustWord tr).toList, (encodingWord en).toList], reOptWord rest) := by
    rw [hl']
    exact matchHeader_found hpre hname hs₁ hf1 hs₂ (word_numeral hnum) hs₃ ht1 hs₄ he1 hd.1
  have hnew : startNewTemplate v ([name, (freqWord t.freq).toList, num, (trustWord tr).toList, (encodingWord en).toList], reOptWord rest) =
      .ok { rawTemplate hex t with blocks := [] } := by
    simp only [startNewTemplate, atoi0_numeral hnum, hf2, ht2, he2, hd.2]
    show (numOfFreq v (some t.freq) k >>= fun _ => _) = _
    rw [hnumf]
    simp [bind, Except.bind, rawTemplate, hn, htr, hen]
  have ho := hasOpen_false hnb.1
  have hc := hasClose_false hnb.2
  have hcomment : isComment l = false := by
    rw [hl']
    cases name with
    | nil => exact absurd rfl hname.1
    | cons a name =>
      have ha := hname.2 a List.mem_cons_self
      refine not_comment hm.2 (fun h => ?_) (fun h => ?_)
      · have := not_space_of_word ha
        rw [(reSpace_iff a).mpr h] at this; cases this
      · rw [h] at ha; unfold WordChar at ha; revert ha; decide
  rw [parseLine_plain v _ _ hcomment (matchVersion_none (by rw [hl']; exact not_version_gap hm))]
  have e1 : openBrace l ⟨ver, 1, ts⟩ = ⟨ver, 1, ts⟩ := by simp [openBrace, ho]
  rw [e1]
  have e2 : stepMessage v l ⟨ver, 1, ts⟩ = .ok ⟨ver, 1, { rawTemplate hex t with blocks := [] } :: ts⟩ := by
    simp only [stepMessage, hmatch, if_true]
    rw [hnew]; rfl
  rw [steps_chain e2 (by simp [stepBlock]; rfl) (by simp [stepData]; rfl)]
  simp [closeBrace, hc]

theorem numOfFreq_refused (f : Frequency) (k n : Nat) (hd : DeclaredNumber f k n) (hn : 256 ≤ n) :
    numOfFreq .v27 (some f) k = .error .structError := by
  have hp : 256 ≤ k → structPack .v27 .big .B k = .error .structError := by
    intro hk
    unfold structPack
    rw [if_neg]
    rintro ⟨_, h⟩
    simp [IntFmt.hi, IntFmt.signed, IntFmt.size] at h
    omega
  cases f with
  | fixed => obtain ⟨_, rfl⟩ := hd; omega
  | low => cases hd; simp only [numOfFreq, hp hn]; rfl
  | medium => cases hd; simp only [numOfFreq, hp hn]; rfl
  | high => cases hd; simp only [numOfFreq, hp hn]; rfl

theorem header_line_refused (ver : Option (List Char)) (ts : List RawTemplate) {l : List Char} {t : Template}
    (h : HeaderLine l t) (hv : 256 ≤ t.msgNum) : parseLine .v27 ⟨ver, 1, ts⟩ l = .error .structError := by
  obtain ⟨m, name, s₁, s₂, num, k, s₃, tr, s₄, en, rest, hm, hname, hs₁, hs₂, hnum, hs₃, hs₄, hl, hnb, hn, hdn, htr, hen, hhex, hdep⟩ := h
  have hpre := margin_nonword hm.2
  obtain ⟨hf1, hf2⟩ := freq_word t.freq
  obtain ⟨ht1, ht2⟩ := trust_word tr
  obtain ⟨he1, he2⟩ := encoding_word en
  have hnumf := numOfFreq_refused t.freq k t.msgNum hdn hv
  have hd : NotNext WordChar rest ∧ deprecationOfWord (reOptWord rest) = t.deprecation := by
    rcases hdep with ⟨hno, hd⟩ | ⟨s₅, dep, rest', hs₅, rfl, hnext, hd⟩
    · exact ⟨noWord_next hno, by rw [noWord_opt hno, hd]; rfl⟩
    · obtain ⟨hd1, hd2⟩ := deprecation_word dep
      rw [List.append_assoc]
      exact ⟨notWord_gap hs₅ _, by rw [optWord_found hs₅ hd1 hnext, hd2, hd]⟩
  have hl' : l = m ++ (name ++ (s₁ ++ ((freqWord t.freq).toList ++ (s₂ ++ (num ++ (s₃ ++ ((trustWord tr).toList ++ (s₄ ++
      ((encodingWord en).toList ++ rest))))))))) := by rw [hl]; simp
  have hmatch : matchMessageHeader l = some ([name, (freqWord t.freq).toList, num, (trustWord tr).toList, (encodingWord en).toList], reOptWord rest) := by
    rw [hl']
    exact matchHeader_found hpre hname hs₁ hf1 hs₂ (word_numeral hnum) hs₃ ht1 hs₄ he1 hd.1
  have hnew : startNewTemplate .v27 ([name, (freqWord t.freq).toList, num, (trustWord tr).toList, (encodingWord en).toList], reOptWord rest) =
      .error .structError := by
    simp only [startNewTemplate, atoi0_numeral hnum, hf2, ht2, he2, hd.2]
    show (numOfFreq .v27 (some t.freq) k >>= fun _ => _) = _
    rw [hnumf]
    rfl
  have ho := hasOpen_false hnb.1
  have hc := hasClose_false hnb.2
  have hcomment : isComment l = false := by
    rw [hl']
    cases name with
    | nil => exact absurd rfl hname.1
    | cons a name =>
      have ha := hname.2 a List.mem_cons_self
      refine not_comment hm.2 (fun h => ?_) (fun h => ?_)
      · have := not_space_of_word ha
        rw [(reSpace_iff a).mpr h] at this; cases this
      · rw [h] at ha; unfold WordChar at ha; revert ha; decide
  rw [parseLine_plain .v27 _ _ hcomment (matchVersion_none (by rw [hl']; exact not_version_gap hm))]
  have e1 : openBrace l ⟨ver, 1, ts⟩ = ⟨ver, 1, ts⟩ := by simp [openBrace, ho]
  rw [e1]
  have e2 : stepMessage .v27 l ⟨ver, 1, ts⟩ = .error .structError := by
    simp only [stepMessage, hmatch, if_true]
    rw [hnew]; rfl
  rw [e2]
  rfl

theorem all_dropWhile {p : Char → Bool} : ∀ {l : List Char}, (∀ c ∈ l, p c = true) → l.dropWhile p = []
  | [], _ => rfl
  | c :: l, h => by rw [List.dropWhile_cons_of_pos (h c (by simp))]; exact all_dropWhile (fun c hc => h c (by simp [hc]))

theorem lowerChar_eq (c : Char) : lowerChar c = c.toLower := by
  unfold lowerChar Char.toLower
  simp only [Bool.and_eq_true, Nat.ble_eq]
  have e : (65 ≤ c.toNat ∧ c.toNat ≤ 90) ↔ (c.val ≥ 'A'.val ∧ c.val ≤ 'Z'.val) := by
    rw [ge_iff_le, UInt32.le_iff_toNat_le, UInt32.le_iff_toNat_le]
    exact Iff.rfl
  by_cases h : 65 ≤ c.toNat ∧ c.toNat ≤ 90
  · rw [if_pos h, dif_pos (e.mp h)]
    apply Char.ext
    apply UInt32.toNat_inj.mp
    have h1 : (Char.ofNat (c.toNat + 32)).toNat = c.toNat + 32 := by
      unfold Char.ofNat
      rw [dif_pos (by left; omega)]
      rfl
    show (Char.ofNat (c.toNat + 32)).toNat = (c.val + 32).toNat
    rw [h1, UInt32.toNat_add]
    show _ = (c.toNat + 32) % 2 ^ 32
    omega
  · rw [if_neg h, dif_neg (fun h' => h (e.mpr h'))]

theorem sign_char {c : Char} : (Nat.beq c.toNat 43 || Nat.beq c.toNat 45) = true ↔ c = '+' ∨ c = '-' := by
  rw [Bool.or_eq_true, ← beq_char c '+', ← beq_char c '-']; rfl

theorem dropSign_split (w : List Char) : ∃ s, Sign s ∧ w = s ++ dropSign w := by
  cases w with
  | nil => exact ⟨[], .inl rfl, rfl⟩
  | cons c r =>
    simp only [dropSign]
    by_cases h : (Nat.beq c.toNat 43 || Nat.beq c.toNat 45) = true
    · rw [if_pos h]
      rcases sign_char.mp h with rfl | rfl
      · exact ⟨['+'], .inr (.inl rfl), rfl⟩
      · exact ⟨['-'], .inr (.inr rfl), rfl⟩
    · rw [if_neg h]; exact ⟨[], .inl rfl, rfl⟩

theorem dropSign_append {s t : List Char} (hs : Sign s) (ht : ∀ c r, t = c :: r → c ≠ '+' ∧ c ≠ '-') : dropSign (s ++ t) = t := by
  rcases hs with rfl | rfl | rfl
  · cases t with
    | nil => rfl
    | cons c r =>
      have := ht c r rfl
      unfold dropSign
      exact if_neg (fun h => (sign_char.mp h).elim this.1 this.2)
  · rfl
  · rfl

theorem digits_all (s : List Char) : s.all reDigit = true ↔ Digits s := by
  rw [List.all_eq_true]
  exact ⟨fun h c hc => (reDigit_iff c).mp (h c hc), fun h c hc => (reDigit_iff c).mpr (h c hc)⟩

theorem digit_not_sign {c : Char} (h : '0' ≤ c ∧ c ≤ '9') : c ≠ '+' ∧ c ≠ '-' ∧ c ≠ '.' ∧ c ≠ 'e' ∧ c ≠ 'E' := by
  simp only [char_le_iff, Char.reduceToNat] at h
  simp only [ne_eq, char_eq_iff, Char.reduceToNat]
  omega

theorem isExponent_iff (e : List Char) : isExponent e = true ↔ Exponent e := by
  cases e with
  | nil => exact ⟨fun _ => .inl rfl, fun _ => rfl⟩
  | cons c r =>
    have hc : (Nat.beq c.toNat 101 || Nat.beq c.toNat 69) = true ↔ c = 'e' ∨ c = 'E' := by
      rw [Bool.or_eq_true, ← beq_char c 'e', ← beq_char c 'E']; rfl
    simp only [isExponent, Bool.and_eq_true, hc, digits_all, Bool.not_eq_true', List.isEmpty_eq_false_iff]
    constructor
    · rintro ⟨⟨h1, h2⟩, h3⟩
      obtain ⟨s, hs, hr⟩ := dropSign_split r
      exact .inr ⟨c, s, dropSign r, h1, hs, h2, h3, by rw [← hr]⟩
    · rintro (h | ⟨c', s, ds, h1, h2, h3, h4, h5⟩)
      · cases h
      · injection h5 with ha hb
        subst ha hb
        have hd : dropSign (s ++ ds) = ds := dropSign_append h2 (by
          rintro c r rfl
          have := digit_not_sign (h4 c List.mem_cons_self)
          exact ⟨this.1, this.2.1⟩)
        rw [hd]
        exact ⟨⟨h1, h3⟩, h4⟩

theorem takeWhile_digits {a r : List Char} (ha : Digits a) (hr : ∀ c t, r = c :: t → ¬ ('0' ≤ c ∧ c ≤ '9')) :
    (a ++ r).takeWhile reDigit = a ∧ (a ++ r).dropWhile reDigit = r := by
  have h1 : ∀ c ∈ a, reDigit c = true := fun c hc => (reDigit_iff c).mpr (ha c hc)
  rw [List.takeWhile_append_of_pos h1, List.dropWhile_append_of_pos h1]
  cases r with
  | nil => exact ⟨List.append_nil _, rfl⟩
  | cons c t =>
    have : ¬ reDigit c = true := fun h => hr c t rfl ((reDigit_iff c).mp h)
    rw [List.takeWhile_cons_of_neg this, List.dropWhile_cons_of_neg this]
    exact ⟨List.append_nil _, rfl⟩

theorem exponent_head {e : List Char} (h : Exponent e) : ∀ c t, e = c :: t → (c = 'e' ∨ c = 'E') := by
  rintro c t rfl
  rcases h with h | ⟨c', s, ds, h1, _, _, _, h5⟩
  · cases h
  · injection h5 with ha hb
    rw [ha]; exact h1

theorem special_iff (t : List Char) : ((t.map lowerChar == "inf".toList) = true ∨ (t.map lowerChar == "infinity".toList) = true) ∨
      (t.map lowerChar == "nan".toList) = true ↔
    t.map Char.toLower ∈ ["inf".toList, "infinity".toList, "nan".toList] := by
  have e : lowerChar = Char.toLower := funext lowerChar_eq
  rw [e]
  simp only [beq_iff_eq, List.mem_cons, List.not_mem_nil, or_false, or_assoc]

/-- `float` on a word. -/
theorem isFloatWord_iff (w : List Char) : isFloatWord w = true ↔ VersionNumber w := by
  unfold isFloatWord
  simp only [Bool.or_eq_true]
  constructor
  · intro h
    obtain ⟨s, hs, hw⟩ := dropSign_split w
    refine ⟨s, dropSign w, hs, hw, ?_⟩
    generalize dropSign w = t at h
    rcases h with h | h
    · left
      have htw : Digits (t.takeWhile reDigit) := (digits_all _).mp List.all_takeWhile
      have hsp : t = t.takeWhile reDigit ++ t.dropWhile reDigit := List.takeWhile_append_dropWhile.symm
      cases hr : t.dropWhile reDigit with
      | nil =>
        rw [hr] at h hsp
        rw [List.append_nil] at hsp
        refine ⟨t, [], .inl ⟨by simpa using h, hsp ▸ htw⟩, .inl rfl, (List.append_nil _).symm⟩
      | cons c r =>
        rw [hr] at h hsp
        simp only at h
        by_cases hc : Nat.beq c.toNat 46 = true
        · rw [if_pos hc] at h
          obtain rfl : c = '.' := (beq_char c '.').mp hc
          simp only [Bool.and_eq_true, Bool.not_eq_true', isExponent_iff, List.isEmpty_eq_false_iff] at h
          refine ⟨t.takeWhile reDigit ++ '.' :: r.takeWhile reDigit, r.dropWhile reDigit,
            .inr ⟨_, _, htw, (digits_all _).mp List.all_takeWhile, ?_, rfl⟩, h.2, ?_⟩
          · by_cases h0 : t.takeWhile reDigit = []
            · right; intro h1; exact h.1 (by rw [h0, h1]; rfl)
            · exact .inl h0
          · rw [List.append_assoc, List.cons_append, List.takeWhile_append_dropWhile]; exact hsp
        · rw [if_neg hc] at h
          simp only [Bool.and_eq_true, Bool.not_eq_true', isExponent_iff, List.isEmpty_eq_false_iff] at h
          exact ⟨t.takeWhile reDigit, c :: r, .inl ⟨h.1, htw⟩, h.2, hsp⟩
    · exact .inr ((special_iff t).mp h)
  · rintro ⟨s, t, hs, rfl, h⟩
    rcases h with ⟨m, e, hm, he, rfl⟩ | h
    · left
      have hed : ∀ c t, e = c :: t → ¬ ('0' ≤ c ∧ c ≤ '9') := by
        intro c t h hc
        have := digit_not_sign hc
        exact (exponent_head he c t h).elim this.2.2.2.1 this.2.2.2.2
      rcases hm with ⟨hne, hd⟩ | ⟨a, b, ha, hb, hne, rfl⟩
      · have hds : dropSign (s ++ (m ++ e)) = m ++ e := dropSign_append hs (by
          intro c r hcr
          cases m with
          | nil => exact absurd rfl hne
          | cons d m =>
            injection hcr with h1 _
            subst h1
            have := digit_not_sign (hd d List.mem_cons_self)
            exact ⟨this.1, this.2.1⟩)
        rw [hds]
        obtain ⟨h1, h2⟩ := takeWhile_digits hd hed
        rw [h1, h2]
        cases e with
        | nil => simp [hne]
        | cons c r =>
          have hc : ¬ Nat.beq c.toNat 46 = true := by
            intro h
            obtain rfl : c = '.' := (beq_char c '.').mp h
            exact absurd (exponent_head he _ _ rfl) (by decide)
          simp only
          rw [if_neg hc, (isExponent_iff _).mpr he]
          simp [hne]
      · have hds : dropSign (s ++ (a ++ '.' :: b ++ e)) = a ++ '.' :: (b ++ e) := by
          rw [dropSign_append hs, List.append_assoc, List.cons_append]
          intro c r hcr
          cases a with
          | nil => injection hcr with h1 _; subst h1; decide
          | cons d m =>
            injection hcr with h1 _
            subst h1
            have := digit_not_sign (ha d List.mem_cons_self)
            exact ⟨this.1, this.2.1⟩
        rw [hds]
        obtain ⟨h1, h2⟩ := takeWhile_digits (r := '.' :: (b ++ e)) ha (by
          intro c t h hc
          injection h with h _
          subst h
          revert hc
          decide)
        obtain ⟨h3, h4⟩ := takeWhile_digits hb hed
        rw [h1, h2]
        simp only
        rw [if_pos (show Nat.beq '.'.toNat 46 = true from rfl), h3, h4, (isExponent_iff _).mpr he]
        simpa using fun h => hne.resolve_left (fun h' => h' h)
    · right
      have hds : dropSign (s ++ t) = t := dropSign_append hs (by
        rintro c r rfl
        constructor <;> (rintro rfl; revert h; rw [List.map_cons]; intro h; simp [Char.toLower] at h))
      rw [hds]
      exact (special_iff t).mpr h

theorem reSpace_digit {c : Char} (h : '0' ≤ c ∧ c ≤ '9') : reSpace c = false := by
  cases hs : reSpace c with
  | false => rfl
  | true =>
    have := (reSpace_iff c).mp hs
    simp only [SpaceChar, char_eq_iff, char_le_iff, Char.reduceToNat] at this h
    omega

theorem isFloatWord_number {w : List Char} (h : VersionNumber w) : isFloatWord w = true ∧ w ≠ [] ∧ ∀ c ∈ w, reSpace c = false := by
  refine ⟨(isFloatWord_iff w).mpr h, ?_, ?_⟩
  · rintro rfl
    exact absurd ((isFloatWord_iff []).mpr h) (by decide)
  · obtain ⟨s, t, hs, rfl, h⟩ := h
    have sgn : ∀ {s}, Sign s → ∀ c ∈ s, reSpace c = false := by
      rintro s (rfl | rfl | rfl) c hc
      · cases hc
      · rw [List.mem_singleton] at hc; subst hc; rfl
      · rw [List.mem_singleton] at hc; subst hc; rfl
    have dig : ∀ {d}, Digits d → ∀ c ∈ d, reSpace c = false := fun hd c hc => reSpace_digit (hd c hc)
    intro c hc
    rcases List.mem_append.mp hc with hc | hc
    · exact sgn hs c hc
    rcases h with ⟨m, e, hm, he, rfl⟩ | h
    · rcases List.mem_append.mp hc with hc | hc
      · rcases hm with ⟨_, hd⟩ | ⟨a, b, ha, hb, _, rfl⟩
        · exact dig hd c hc
        · rcases List.mem_append.mp hc with hc | hc
          · exact dig ha c hc
          · rcases List.mem_cons.mp hc with rfl | hc
            · rfl
            · exact dig hb c hc
      · rcases he with rfl | ⟨x, s, ds, hx, hs, _, hd, rfl⟩
        · cases hc
        · rcases List.mem_cons.mp hc with rfl | hc
          · rcases hx with rfl | rfl <;> rfl
          · rcases List.mem_append.mp hc with hc | hc
            · exact sgn hs c hc
            · exact dig hd c hc
    · have h2 : c.toLower ∈ t.map Char.toLower := List.mem_map_of_mem hc
      cases hsp : reSpace c with
      | false => rfl
      | true =>
        have hlow : c.toLower = c := by
          have := (reSpace_iff c).mp hsp
          rcases this with rfl | rfl | rfl | rfl | rfl | rfl <;> rfl
        rw [hlow] at h2
        have : ∀ l ∈ ["inf".toList, "infinity".toList, "nan".toList], ∀ d ∈ l, reSpace d = false := by decide
        rw [this _ h c h2] at hsp
        cases hsp

/-- A version line whose first word is no number. -/
theorem matchVersion_bad (c : Char) (g w r : List Char) (hg : Margin g) (hw : w ≠ []) (hws : ∀ x ∈ w, ¬ SpaceChar x) (hn : ¬ VersionNumber w)
    (hr : NotNext (fun c => ¬ SpaceChar c) r) : matchVersion ("version".toList ++ c :: (g ++ (w ++ r))) = some (.error .valueError) := by
  have hsp : ∀ x ∈ w, reSpace x = false := by
    intro x hx
    cases h : reSpace x with
    | false => rfl
    | true => exact absurd ((reSpace_iff x).mp h) (hws x hx)
  obtain ⟨w0, ws, rfl⟩ := List.exists_cons_of_ne_nil hw
  unfold matchVersion
  rw [(version_prefix _).mpr ⟨c :: (g ++ (w0 :: ws ++ r)), rfl⟩, if_pos rfl]
  have hd : ("version".toList ++ c :: (g ++ (w0 :: ws ++ r))).drop 7 = c :: (g ++ (w0 :: ws ++ r)) := rfl
  rw [hd]
  have h1 : (g ++ (w0 :: ws ++ r)).dropWhile reSpace = w0 :: ws ++ r := by
    rw [List.dropWhile_append_of_pos (fun x hx => (reSpace_iff x).mpr (hg x hx))]
    simp [hsp w0 (by simp)]
  have h2 : (w0 :: ws ++ r).takeWhile (fun c => !reSpace c) = w0 :: ws := by
    rw [List.takeWhile_append_of_pos (by intro x hx; simp [hsp x hx])]
    cases r with
    | nil => simp
    | cons y r =>
      have : reSpace y = true := by
        cases h2 : reSpace y with
        | true => rfl
        | false => exact absurd (fun h => by rw [(reSpace_iff y).mpr h] at h2; cases h2) (hr y r rfl)
      simp [List.takeWhile, this]
  have hfl : isFloatWord (w0 :: ws) = false := by
    cases h : isFloatWord (w0 :: ws) with
    | false => rfl
    | true => exact absurd ((isFloatWord_iff _).mp h) hn
  cases hx : g ++ (w0 :: ws ++ r) with
  | nil => cases g <;> cases hx
  | cons x xs =>
    simp only
    rw [← hx, h1, h2]
    simp [hfl]

theorem idle_line (v : PyVersion) (ver : Option (List Char)) (ts : List RawTemplate) {l : List Char} (h : Idle l) :
    ∃ ver', parseLine v ⟨ver, 0, ts⟩ l = .ok ⟨ver', 0, ts⟩ := by
  have plain : ∀ ver, NoBrace l → isComment l = false → matchVersion l = none → parseLine v ⟨ver, 0, ts⟩ l = .ok ⟨ver, 0, ts⟩ := by
    intro ver hnb hc hv
    rw [parseLine_plain v _ _ hc hv]
    simp [openBrace, closeBrace, hasOpen_false hnb.1, hasClose_false hnb.2, stepMessage, stepBlock, stepData, bind, Except.bind]
  rcases h with h | ⟨hnb, hv⟩ | ⟨c, g, w, r, hnb, hg, hw, hnn, hl⟩
  · exact ⟨ver, parseLine_filler v _ h⟩
  · cases hc : isComment l with
    | true => exact ⟨ver, by unfold parseLine; rw [hc]; rfl⟩
    | false => exact ⟨ver, plain ver hnb hc (matchVersion_none hv)⟩
  · have hmv : ∃ x, matchVersion l = some (.ok x) := by
      unfold matchVersion
      rw [(version_prefix l).mpr ⟨c :: (g ++ (w ++ r)), hl.symm⟩, if_pos rfl]
      have hd : l.drop 7 = c :: (g ++ (w ++ r)) := by
        rw [hl]; rfl
      rw [hd]
      obtain ⟨hfl, hne, hsp⟩ := isFloatWord_number hw
      obtain ⟨w0, ws, rfl⟩ := List.exists_cons_of_ne_nil hne
      have h1 : (g ++ ((w0 :: ws) ++ r)).dropWhile reSpace = (w0 :: ws) ++ r := by
        rw [List.dropWhile_append_of_pos (fun x hx => (reSpace_iff x).mpr (hg x hx))]
        simp [hsp w0 (by simp)]
      have h2 : ((w0 :: ws) ++ r).takeWhile (fun c => !reSpace c) = w0 :: ws := by
        rw [List.takeWhile_append_of_pos (by intro c hc; simp [hsp c hc])]
        cases r with
        | nil => simp
        | cons y r =>
          have : reSpace y = true := by
            cases h2 : reSpace y with
            | true => rfl
            | false =>
              exact absurd (fun h => by rw [(reSpace_iff y).mpr h] at h2; cases h2) (hnn y r rfl)
          simp [List.takeWhile, this]
      refine ⟨w0 :: ws, ?_⟩
      cases hx : g ++ (w0 :: ws ++ r) with
      | nil => cases g <;> cases hx
      | cons x xs =>
        simp only
        rw [← hx, h1, h2]
        simp [hfl]
    obtain ⟨x, hx⟩ := hmv
    cases hc : isComment l with
    | true => exact ⟨ver, by unfold parseLine; rw [hc]; rfl⟩
    | false =>
      cases ver with
      | some y =>
        refine ⟨some y, ?_⟩
        unfold parseLine
        rw [hc]
        simp [readVersion, openBrace, closeBrace, hasOpen_false hnb.1, hasClose_false hnb.2, stepMessage, stepBlock, stepData, bind, Except.bind]
      | none =>
        refine ⟨some x, ?_⟩
        unfold parseLine
        rw [hc]
        simp [readVersion, hx, openBrace, closeBrace, hasOpen_false hnb.1, hasClose_false hnb.2, stepMessage, stepBlock, stepData, bind, Except.bind]

theorem layout_parse (v : PyVersion) {file : List (List Char)} {ts : List Template} (h : Layout file ts) :
    (v = .v26 ∨ ∀ t ∈ ts, t.msgNum < 256) → ∀ ver older, ∃ (raws : List RawTemplate) (ver' : Option (List Char)), parseLines v ⟨ver, 0, older⟩ file = .ok ⟨ver', 0, raws.reverse ++ older⟩ ∧
      raws.mapM RawTemplate.known = some ts := by
  induction h with
  | nil => intro _ ver older; exact ⟨[], ver, rfl, rfl⟩
  | idle l ls ts hi _ ih =>
    intro hv ver older
    obtain ⟨ver1, h1⟩ := idle_line v ver older hi
    obtain ⟨raws, ver', h2, h3⟩ := ih hv ver1 older
    refine ⟨raws, ver', ?_, h3⟩
    rw [parseLines, h1]
    exact h2
  | message o fs hd bs c ls t ts ho hfs hh hbs hc _ ih =>
    intro hv ver older
    obtain ⟨hex, h1⟩ := header_line v ver older hh (hv.imp id (fun h => h t List.mem_cons_self))
    obtain ⟨raws, ver', h2, h3⟩ := ih (hv.imp id (fun h x hx => h x (List.mem_cons_of_mem _ hx))) ver (rawTemplate hex t :: older)
    refine ⟨rawTemplate hex t :: raws, ver', ?_, ?_⟩
    · rw [parseLines, parseLine_open v ver 0 _ ho]
      show parseLines v ⟨ver, 0 + 1, older⟩ (fs ++ hd :: (bs ++ c :: ls)) = _
      rw [parseLines_fillers v _ fs _ hfs, parseLines, show (0 + 1 : Int) = 1 from rfl, h1]
      show parseLines v _ (bs ++ c :: ls) = _
      rw [parseLines_append, block_lines v hbs]
      show parseLines v _ (c :: ls) = _
      rw [parseLines, parseLine_close v _ _ _ hc]
      simp only [List.reverse_cons, List.append_assoc, List.singleton_append, List.append_nil]
      rw [← h2]
      rfl
    · rw [List.mapM_cons, known_rawTemplate hex t (by obtain ⟨_, _, _, _, _, _, _, _, _, _, _, h⟩ := hh; exact h.2.2.2.2.2.2.2.2.2.2.2.2.2.1), h3]
      rfl

theorem layout_file (v : PyVersion) {file : List (List Char)} {ts : List Template} (h : Layout file ts)
    (hv : v = .v26 ∨ ∀ t ∈ ts, t.msgNum < 256) : ∃ raws, parseTemplateFile v file = .ok raws ∧ raws.mapM RawTemplate.known = some ts := by
  obtain ⟨raws, ver', h1, h2⟩ := layout_parse v h hv none []
  refine ⟨raws, ?_, h2⟩
  unfold parseTemplateFile
  rw [h1]
  simp [bind, Except.bind]

theorem layout_refused {file : List (List Char)} {ts : List Template} (h : Layout file ts) :
    (∃ t ∈ ts, 256 ≤ t.msgNum) → ∀ ver older, parseLines .v27 ⟨ver, 0, older⟩ file = .error .structError := by
  induction h with
  | nil => rintro ⟨t, ht, _⟩; cases ht
  | idle l ls ts hi _ ih =>
    intro hv ver older
    obtain ⟨ver1, h1⟩ := idle_line .v27 ver older hi
    rw [parseLines, h1]
    exact ih hv ver1 older
  | message o fs hd bs c ls t ts ho hfs hh hbs hc _ ih =>
    intro hv ver older
    rw [parseLines, parseLine_open .v27 ver 0 _ ho]
    show parseLines .v27 ⟨ver, 0 + 1, older⟩ (fs ++ hd :: (bs ++ c :: ls)) = _
    rw [parseLines_fillers .v27 _ fs _ hfs, parseLines, show (0 + 1 : Int) = 1 from rfl]
    by_cases hb : 256 ≤ t.msgNum
    · rw [header_line_refused ver older hh hb]; rfl
    · obtain ⟨hex, h1⟩ := header_line .v27 ver older hh (.inr (by omega))
      rw [h1]
      show parseLines .v27 _ (bs ++ c :: ls) = _
      rw [parseLines_append, block_lines .v27 hbs]
      show parseLines .v27 _ (c :: ls) = _
      rw [parseLines, parseLine_close .v27 _ _ _ hc]
      refine ih ?_ ver _
      obtain ⟨x, hx, hx'⟩ := hv
      rcases List.mem_cons.mp hx with rfl | hx
      · exact absurd hx' hb
      · exact ⟨x, hx, hx'⟩

theorem layout_file_refused {file : List (List Char)} {ts : List Template} (h : Layout file ts) (hb : ∃ t ∈ ts, 256 ≤ t.msgNum) :
    parseTemplateFile .v27 file = .error .structError := by
  unfold parseTemplateFile
  rw [layout_refused h hb none []]
  rfl

end Pyogp
