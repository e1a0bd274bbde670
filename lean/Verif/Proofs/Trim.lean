import Verif.Model.Helpers
import Verif.Spec.Trim

namespace Pyogp
open Spec

theorem isWs_iff (c : Char) : isWs c = true ↔ White c := by
  simp [isWs, White, Bool.or_eq_true, or_assoc]

theorem isWs_false_iff (c : Char) : isWs c = false ↔ ¬ White c := by
  rw [← isWs_iff]; simp

theorem dropWhile_white : ∀ {pre t : List Char}, (∀ c ∈ pre, White c) → (∀ c, t.head? = some c → ¬ White c) → (pre ++ t).dropWhile isWs = t
  | [], [], _, _ => rfl
  | [], c :: t, _, h => by
    rw [List.nil_append, List.dropWhile_cons_of_neg]
    rw [isWs_iff]; exact h c rfl
  | c :: pre, t, h, h' => by
    rw [List.cons_append, List.dropWhile_cons_of_pos ((isWs_iff c).mpr (h c List.mem_cons_self))]
    exact dropWhile_white (fun d hd => h d (List.mem_cons_of_mem _ hd)) h'

theorem strip_of_trimmed {s t : List Char} (h : Trimmed s t) : strip s = t := by
  obtain ⟨pre, post, rfl, h1, h2, h3, h4⟩ := h
  unfold strip
  cases t with
  | nil =>
    have e : (pre ++ [] ++ post).dropWhile isWs = [] := by
      have := dropWhile_white (pre := pre ++ [] ++ post) (t := []) (by
        intro c hc
        simp only [List.append_nil, List.mem_append] at hc
        exact hc.elim (h1 c) (h2 c)) (by intro c hc; cases hc)
      rwa [List.append_nil] at this
    rw [e]; rfl
  | cons c t =>
    have e : (pre ++ (c :: t) ++ post).dropWhile isWs = (c :: t) ++ post := by
      rw [List.append_assoc]
      exact dropWhile_white h1 (by intro d hd; exact h3 d hd)
    rw [e, List.reverse_append, dropWhile_white (by intro d hd; exact h2 d (List.mem_reverse.mp hd))
      (by intro d hd; rw [List.head?_reverse] at hd; exact h4 d hd), List.reverse_reverse]

theorem dropWhile_split (p : Char → Bool) : ∀ s : List Char, ∃ pre, s = pre ++ s.dropWhile p ∧ (∀ c ∈ pre, p c = true) ∧
    ∀ c, (s.dropWhile p).head? = some c → p c = false
  | [] => ⟨[], rfl, by simp, by simp⟩
  | x :: s => by
    cases hx : p x with
    | true =>
      obtain ⟨pre, h1, h2, h3⟩ := dropWhile_split p s
      rw [List.dropWhile_cons_of_pos hx]
      exact ⟨x :: pre, by rw [List.cons_append, ← h1], by
        intro c hc
        rcases List.mem_cons.mp hc with rfl | hc
        · exact hx
        · exact h2 c hc, h3⟩
    | false =>
      rw [List.dropWhile_cons_of_neg (by rw [hx]; decide)]
      exact ⟨[], rfl, by simp, by intro c hc; cases hc; exact hx⟩

theorem trimmed_strip (s : List Char) : Trimmed s (strip s) := by
  obtain ⟨pre, h1, h2, h3⟩ := dropWhile_split isWs s
  obtain ⟨post, h4, h5, h6⟩ := dropWhile_split isWs (s.dropWhile isWs).reverse
  have h7 : s.dropWhile isWs = strip s ++ post.reverse := by
    have := congrArg List.reverse h4
    rw [List.reverse_reverse, List.reverse_append] at this
    exact this
  refine ⟨pre, post.reverse, by rw [List.append_assoc, ← h7]; exact h1, fun c hc => (isWs_iff c).mp (h2 c hc),
    fun c hc => (isWs_iff c).mp (h5 c (List.mem_reverse.mp hc)), ?_, ?_⟩
  · intro c hc
    apply (isWs_false_iff c).mp
    apply h3 c
    rw [h7]
    cases hs : strip s with
    | nil => rw [hs] at hc; cases hc
    | cons d t => rw [hs] at hc; exact hc
  · intro c hc
    apply (isWs_false_iff c).mp
    apply h6 c
    rw [strip, List.getLast?_reverse] at hc
    exact hc

/-- `strip` is the text without the white space around it. -/
theorem strip_iff (s t : List Char) : strip s = t ↔ Trimmed s t :=
  ⟨fun h => h ▸ trimmed_strip s, strip_of_trimmed⟩

end Pyogp
