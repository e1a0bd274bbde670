import Verif.Proofs.Render
import Verif.Proofs.Parse
import Verif.Proofs.MessageApi

/-! # Which messages can be shown: messages built from blocks, and received ones -/

namespace Pyogp
open Spec

/-! ## Built from blocks -/

/-- The variables of `Block(name, **kwargs)` are there and have no type. -/
theorem mk'_untyped (name : String) (kwargs : List (String × PyVal)) :
    ∀ n ∈ (Block.mk' name kwargs).varList, ∃ v, (Block.mk' name kwargs).vars.get? n = some v ∧ v.varType = none := by
  unfold Block.mk'
  have key : ∀ b : BlockData, (∀ n ∈ b.varList, ∃ v, b.vars.get? n = some v ∧ v.varType = none) →
      ∀ n ∈ (kwargs.foldl (fun b kv => b.addVariable { name := kv.1, data := kv.2 }) b).varList,
        ∃ v, (kwargs.foldl (fun b kv => b.addVariable { name := kv.1, data := kv.2 }) b).vars.get? n = some v ∧ v.varType = none := by
    induction kwargs with
    | nil => intro b h; exact h
    | cons kv l ih =>
      intro b h
      apply ih
      intro n hn
      simp only [BlockData.addVariable, List.mem_append, List.mem_singleton, Dict.get?_set] at hn ⊢
      by_cases hk : kv.1 = n
      · exact ⟨{ name := kv.1, data := kv.2 }, by simp [hk], rfl⟩
      · rcases hn with hn | hn
        · obtain ⟨v, h1, h2⟩ := h n hn
          exact ⟨v, by simp [hk, h1], h2⟩
        · exact absurd hn.symm hk
  exact key _ (by intro n hn; cases hn)

theorem mem_addBlock {d : Dict String (List BlockData)} {b : BlockData} {p : String × List BlockData} (hp : p ∈ addBlock d b) :
    ∀ x ∈ p.2, x = b ∨ ∃ q ∈ d, x ∈ q.2 := by
  intro x hx
  unfold addBlock at hp
  split at hp
  · rcases mem_set hp with h | h
    · subst h; exact .inl (List.mem_singleton.mp hx)
    · exact .inr ⟨p, h, hx⟩
  · rename_i l hl
    rcases mem_set hp with h | h
    · subst h
      rcases List.mem_append.mp hx with h | h
      · exact .inr ⟨_, Dict.mem_of_get? hl, h⟩
      · exact .inl (List.mem_singleton.mp h)
    · exact .inr ⟨p, h, hx⟩

theorem mem_foldl_addBlock (l : List BlockData) : ∀ {d : Dict String (List BlockData)} {p : String × List BlockData}, p ∈ l.foldl addBlock d →
    ∀ x ∈ p.2, x ∈ l ∨ ∃ q ∈ d, x ∈ q.2 := by
  induction l with
  | nil => intro d p hp x hx; exact .inr ⟨p, hp, hx⟩
  | cons b l ih =>
    intro d p hp x hx
    rcases ih hp x hx with h | ⟨q, hq, hxq⟩
    · exact .inl (List.mem_cons_of_mem _ h)
    · rcases mem_addBlock hq x hxq with rfl | h
      · exact .inl List.mem_cons_self
      · exact .inr h

/-- A message constructed from `Block`s is built from blocks. -/
theorem builtFromBlocks_new (name : String) (args : List BlockArg) (h : ∀ b ∈ flatArgs args, ∃ n kw, b = Block.mk' n kw) :
    BuiltFromBlocks (Message.new name args) := by
  intro p hp b hb
  have he : (Message.new name args).blocks = (flatArgs args).foldl addBlock [] := by
    unfold Message.new; rw [parseBlocks_flat]
  rw [he] at hp
  rcases mem_foldl_addBlock _ hp b hb with h' | ⟨q, hq, _⟩
  · obtain ⟨n, kw, rfl⟩ := h b h'
    exact mk'_untyped n kw
  · cases hq

/-! ## Received -/

/-- All variables of the block show as a `str`. -/
def ShowBlock (b : BlockData) : Prop := ∀ n ∈ b.varList, ∃ v hi, b.vars.get? n = some v ∧ v.render = .ok ⟨false, hi⟩

theorem ShowBlock.addVariable {b : BlockData} (h : ShowBlock b) {v : VarData} {hi} (hv : v.render = .ok ⟨false, hi⟩) : ShowBlock (b.addVariable v) := by
  intro n hn
  simp only [BlockData.addVariable, List.mem_append, List.mem_singleton, Dict.get?_set] at hn ⊢
  by_cases hk : v.name = n
  · exact ⟨v, hi, by simp [hk], hv⟩
  · rcases hn with hn | hn
    · obtain ⟨w, hi', h1, h2⟩ := h n hn
      exact ⟨w, hi', by simp [hk, h1], h2⟩
    · exact absurd hn.symm hk

theorem ShowBlock.render {b : BlockData} : ∀ (ns : List String) (t : Text), t.unicode = false →
    (∀ n ∈ ns, ∃ v hi, b.vars.get? n = some v ∧ v.render = .ok ⟨false, hi⟩) → ∃ t', b.render ns t = .ok t' ∧ t'.unicode = false := by
  intro ns
  induction ns with
  | nil => intro t ht _; exact ⟨t, rfl, ht⟩
  | cons n ns ih =>
    intro t ht hv
    obtain ⟨v, hi, hg, hr⟩ := hv n List.mem_cons_self
    have hget : b.getVariable n = .ok v := by unfold BlockData.getVariable Dict.get; rw [hg]
    have hstep : b.render (n :: ns) t = b.render ns ⟨false, t.high || hi⟩ := by
      conv => lhs; unfold BlockData.render
      simp only [hget, hr, bind, Except.bind, Text.append_str t ⟨false, hi⟩ ht rfl]
    rw [hstep]
    exact ih _ rfl (fun k hk => hv k (List.mem_cons_of_mem _ hk))

theorem showBlocks_render : ∀ (bs : List BlockData) (t : Text), t.unicode = false → (∀ b ∈ bs, ShowBlock b) →
    ∃ t', renderBlocks bs t = .ok t' ∧ t'.unicode = false := by
  intro bs
  induction bs with
  | nil => intro t ht _; exact ⟨t, rfl, ht⟩
  | cons b bs ih =>
    intro t ht hv
    obtain ⟨t', h1, h2⟩ := ShowBlock.render b.varList t ht (hv b List.mem_cons_self)
    obtain ⟨t2, h3, h4⟩ := ih t' h2 (fun k hk => hv k (List.mem_cons_of_mem _ hk))
    exact ⟨t2, by unfold renderBlocks; simp only [h1, bind, Except.bind, h3], h4⟩

theorem showDict_render : ∀ (d : Dict String (List BlockData)) (t : Text), t.unicode = false → (∀ p ∈ d, ∀ b ∈ p.2, ShowBlock b) →
    ∃ t', renderDict d t = .ok t' ∧ t'.unicode = false := by
  intro d
  induction d with
  | nil => intro t ht _; exact ⟨t, rfl, ht⟩
  | cons p d ih =>
    obtain ⟨k, bs⟩ := p
    intro t ht hv
    obtain ⟨t', h1, h2⟩ := showBlocks_render bs t ht (hv (k, bs) List.mem_cons_self)
    obtain ⟨t2, h3, h4⟩ := ih t' h2 (fun q hq => hv q (List.mem_cons_of_mem _ hq))
    exact ⟨t2, by unfold renderDict; simp only [h1, bind, Except.bind, h3], h4⟩

theorem codec_not_unicode {rt : Runtime} {en : Endian} {c : Codec} {b : Bytes} {x : PyVal} (h : c.unpack rt en b = .ok x) (u : Bytes) :
    x ≠ .unicode u := by
  rintro rfl
  cases c <;> simp only [Codec.unpack, bind_ok, Except.ok.injEq, reduceCtorEq, and_false, exists_const] at h
  · unfold vector3OfBytes at h
    simp only [bind_ok] at h
    obtain ⟨_, _, _, _, _, _, h⟩ := h
    cases h
  · unfold quaternionOfBytes at h
    simp only [bind_ok] at h
    obtain ⟨_, _, h⟩ := h
    split at h <;> (obtain ⟨_, _, _, _, h⟩ := h; cases h)

theorem unpackData_not_unicode {rt : Runtime} {data : Bytes} {ty : MsgType} {s n} {x : PyVal} (h : unpackData rt data ty s n = .ok x) (u : Bytes) :
    x ≠ .unicode u := by
  unfold unpackData at h
  simp only at h
  unfold wrapStructError at h
  split at h
  · cases h
  · exact codec_not_unicode h u

/-- A variable read from a datagram shows as a `str`, unless it is a Fixed one of an odd length. -/
theorem decodeVar_show {rt : Runtime} {data : Bytes} {v : TVar} {pos pos' : Nat} {d : VarData}
    (hev : v.type = .fixed → v.size % 2 = 0) (h : decodeVar rt data v pos = .ok (d, pos')) : ∃ hi, d.render = .ok ⟨false, hi⟩ := by
  obtain ⟨raw, post, _, _, _, ht, hf⟩ := decodeVar_inv h
  unfold FieldBytes at hf
  by_cases hv : v.type = .variable
  · rw [if_pos hv] at hf
    obtain ⟨len, content, _, _, _, hx⟩ := hf
    have : ∃ s, d.data = .str s := by
      split at hx
      · exact ⟨_, hx⟩
      · obtain ⟨s, _, hs⟩ := hx; exact ⟨s, hs⟩
    obtain ⟨s, hs⟩ := this
    exact ⟨hasHigh s, by unfold VarData.render; rw [ht, hv]; simp only [hs]⟩
  · rw [if_neg hv] at hf
    obtain ⟨hl, hx⟩ := hf
    by_cases hfx : v.type = .fixed
    · rw [hfx] at hx
      have hd : d.data = .str raw := by
        have h0 : unpackData rt raw .fixed = .ok (.str raw) := rfl
        rw [h0] at hx; exact (Except.ok.inj hx).symm
      exact ⟨false, by unfold VarData.render; rw [ht, hfx]; simp only [hd]; rw [if_pos (by rw [hl]; exact hev hfx)]⟩
    · have hu := unpackData_not_unicode hx
      unfold VarData.render
      rw [ht]
      cases hty : v.type <;> first
        | exact absurd hty hv
        | exact absurd hty hfx
        | (simp only
           cases hdd : d.data with
           | unicode u => exact absurd hdd (hu u)
           | _ => exact ⟨_, rfl⟩)

theorem decodeVars_show {rt : Runtime} {data : Bytes} : ∀ {vs : List TVar} {pos pos' : Nat} {blk b : BlockData},
    (∀ v ∈ vs, v.type = .fixed → v.size % 2 = 0) → ShowBlock blk → decodeVars rt data vs pos blk = .ok (b, pos') → ShowBlock b
  | [], pos, pos', blk, b, _, hs, h => by
    simp only [decodeVars, Except.ok.injEq, Prod.mk.injEq] at h
    obtain ⟨rfl, rfl⟩ := h
    exact hs
  | v :: vs, pos, pos', blk, b, he, hs, h => by
    simp only [decodeVars, bind_ok] at h
    obtain ⟨⟨d, p⟩, hd, h⟩ := h
    obtain ⟨hi, hr⟩ := decodeVar_show (he v List.mem_cons_self) hd
    exact decodeVars_show (fun w hw => he w (List.mem_cons_of_mem _ hw)) (hs.addVariable hr) h

theorem decodeInstances_show {rt : Runtime} {data : Bytes} {tb : TBlock} (he : ∀ v ∈ tb.vars, v.type = .fixed → v.size % 2 = 0) :
    ∀ {n i pos pos' : Nat} {blocks out : Dict String (List BlockData)}, (∀ p ∈ blocks, ∀ b ∈ p.2, ShowBlock b) →
    decodeInstances rt data tb n i pos blocks = .ok (out, pos') → ∀ p ∈ out, ∀ b ∈ p.2, ShowBlock b
  | 0, i, pos, pos', blocks, out, hs, h => by
    simp only [decodeInstances, Except.ok.injEq, Prod.mk.injEq] at h
    obtain ⟨rfl, rfl⟩ := h
    exact hs
  | n + 1, i, pos, pos', blocks, out, hs, h => by
    simp only [decodeInstances, bind_ok] at h
    obtain ⟨⟨b, p⟩, hb, h⟩ := h
    have hsb : ShowBlock b := decodeVars_show he (by intro n hn; cases hn) hb
    refine decodeInstances_show he ?_ h
    intro q hq x hx
    rcases mem_addBlock hq x hx with rfl | ⟨q', h1, h2⟩
    · exact hsb
    · exact hs q' h1 x h2

theorem decodeBlocks_show {rt : Runtime} {data : Bytes} : ∀ {tbs : List TBlock} {pos pos' : Nat} {blocks out : Dict String (List BlockData)},
    (∀ tb ∈ tbs, ∀ v ∈ tb.vars, v.type = .fixed → v.size % 2 = 0) → (∀ p ∈ blocks, ∀ b ∈ p.2, ShowBlock b) →
    decodeBlocks rt data tbs pos blocks = .ok (out, pos') → ∀ p ∈ out, ∀ b ∈ p.2, ShowBlock b
  | [], pos, pos', blocks, out, _, hs, h => by
    simp only [decodeBlocks, Except.ok.injEq, Prod.mk.injEq] at h
    obtain ⟨rfl, rfl⟩ := h
    exact hs
  | tb :: tbs, pos, pos', blocks, out, he, hs, h => by
    simp only [decodeBlocks, bind_ok] at h
    obtain ⟨⟨n, p⟩, _, ⟨bl, p2⟩, hi, h⟩ := h
    exact decodeBlocks_show (fun w hw => he w (List.mem_cons_of_mem _ hw)) (decodeInstances_show (he tb List.mem_cons_self) hs hi) h

/-- A received message can be shown if no Fixed field of its template has an odd length. -/
theorem decodeData_render {rt : Runtime} {t : Template} {data : Bytes} {m : Message} (he : ∀ tb ∈ t.blocks, ∀ v ∈ tb.vars, v.type = .fixed → v.size % 2 = 0)
    (h : decodeData rt (some t) data = .ok m) : ∃ x, m.render = .ok x := by
  obtain ⟨_, _, _, _, _, _, _, _, _, hb, _⟩ := decodeData_inv h
  have := decodeBlocks_show he (by intro p hp; cases hp) hb
  obtain ⟨t', h1, _⟩ := showDict_render m.blocks {} rfl this
  exact ⟨t', h1⟩

end Pyogp
