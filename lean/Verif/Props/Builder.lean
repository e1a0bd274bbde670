import Verif.Model.Builder
import Verif.Spec.Builder
import Verif.Props.MessageApi

/-!
# C91: every use of a `LLSDMessageBuilder`
-/

namespace Pyogp
open Spec

theorem builder_shows (bs : Declaration) :
    Shows ((((bs.map (fun x => Block.mk' x.1 x.2)).foldl addBlock []).map (·.2)).flatten.foldl buildInstance []) bs := by
  intro block
  have hok : BlocksOk ((bs.map (fun x => Block.mk' x.1 x.2)).foldl addBlock []) := BlocksOk.nil.foldl
  have hfilter := hok.filter block
  rw [get?_foldl_addBlock, filter_mk'] at hfilter
  rw [get?_foldl_buildInstance, hfilter]
  constructor
  · intro h0
    simp [h0, Dict.get?]
  · intro h0
    have hne : ¬ (bs.instances block).map (fun vs => Block.mk' block vs) = [] := by simpa using h0
    refine ⟨(bs.instances block).map (fun vs => blockMap (Block.mk' block vs)), ?_, by simp, ?_⟩
    · simp only [if_neg hne, Option.getD_some]
      simp [Dict.get?, h0, Function.comp_def]
    · intro i m vs hm hvs var
      rw [List.getElem?_map, hvs] at hm
      cases hm
      rw [blockMap_get? (varsOk_mk' block vs), mk'_get?]

theorem buildInstance_nodup (l : List BlockData) : ∀ d : Dict String (List VarMap), d.keys.Nodup → (l.foldl buildInstance d).keys.Nodup := by
  induction l with
  | nil => intro d h; exact h
  | cons b l ih =>
    intro d h
    refine ih _ ?_
    unfold buildInstance
    split <;> exact keys_set_nodup h _ _

theorem declared_snoc (ops : List BuilderOp) (op : BuilderOp) : declared (ops ++ [op]) = declareCall (declared ops) op := by
  simp [declared]

theorem blockBegun_snoc (ops : List BuilderOp) (op : BuilderOp) :
    BlockBegun (ops ++ [op]) ↔ BlockBegun ops ∨ ((∃ n, op = .nextBlock n) ∧ declared ops ≠ none) := by
  constructor
  · rintro ⟨pre, n, post, h, hd⟩
    rcases List.eq_nil_or_concat post with rfl | ⟨post', x, rfl⟩
    · have h' : ops ++ [op] = pre ++ [.nextBlock n] := h
      obtain ⟨h1, h2⟩ := List.append_inj' h' rfl
      exact .inr ⟨⟨n, by simpa using h2⟩, h1 ▸ hd⟩
    · have h' : ops ++ [op] = (pre ++ .nextBlock n :: post') ++ [x] := by rw [h]; simp
      obtain ⟨h1, h2⟩ := List.append_inj' h' rfl
      exact .inl ⟨pre, n, post', h1, hd⟩
  · rintro (⟨pre, n, post, h, hd⟩ | ⟨⟨n, rfl⟩, hd⟩)
    · exact ⟨pre, n, post ++ [op], by rw [h]; simp, hd⟩
    · exact ⟨ops, n, [], rfl, hd⟩

/-- What a builder knows after a history. -/
structure Knows (ops : List BuilderOp) (b : Builder) : Prop where
  absent : declared ops = none → b.msg = none
  msg : ∀ bs, declared ops = some bs → ∃ nm, b.msg = some (nm, (bs.map (fun x => Block.mk' x.1 x.2)).foldl addBlock [])
  cur : b.cur = .none ↔ ¬ BlockBegun ops
  live : ∀ bs x, declared ops = some (bs ++ [x]) → b.cur = .live x.1
  stale : declared ops = some [] → b.cur ≠ .none → b.cur = .stale
  noMsg : declared ops = none → b.cur = .none
  built : b.built = true ↔ ∃ pre, ops = pre ++ [.build] ∧ declared pre ≠ none

theorem mk'_addVariable (n : String) (vs : List (String × PyVal)) (k : String) (v : PyVal) :
    Block.mk' n (vs ++ [(k, v)]) = (Block.mk' n vs).addVariable { name := k, data := v } := by
  simp [Block.mk', List.foldl_append]

theorem built_snoc_not {ops : List BuilderOp} {op : BuilderOp} (h : op ≠ .build) :
    ¬ ∃ pre, ops ++ [op] = pre ++ [.build] ∧ declared pre ≠ none := by
  rintro ⟨pre, h1, _⟩
  obtain ⟨_, h2⟩ := List.append_inj' h1 rfl
  exact h (by simpa using h2)

theorem knows_nil : Knows [] {} := by
  refine ⟨fun _ => rfl, ?_, ?_, ?_, ?_, fun _ => rfl, ?_⟩
  · intro bs h; cases h
  · refine ⟨fun _ => ?_, fun _ => rfl⟩
    rintro ⟨pre, n, post, h, _⟩
    simp at h
  · intro bs x h; cases h
  · intro h; cases h
  · constructor
    · intro h; cases h
    · rintro ⟨pre, h, _⟩; simp at h

theorem knows_call {ops : List BuilderOp} {b : Builder} (h : Knows ops b) (op : BuilderOp) : Knows (ops ++ [op]) (b.call op).2 := by
  cases op with
  | newMessage n =>
    have hb : BlockBegun (ops ++ [.newMessage n]) ↔ BlockBegun ops := by rw [blockBegun_snoc]; simp
    simp only [Builder.call]
    have hd : declared (ops ++ [.newMessage n]) = some [] := by rw [declared_snoc]; rfl
    have hcur : (b.newMessage n).cur = .none ∨ (b.newMessage n).cur = .stale := by
      unfold Builder.newMessage; cases b.cur <;> simp
    refine ⟨fun h' => ?_, fun bs h' => ?_, ?_, fun bs x h' => ?_, fun _ hc => ?_, fun h' => ?_, ?_⟩
    · rw [hd] at h'; cases h'
    · rw [hd] at h'; cases h'; exact ⟨n, rfl⟩
    · rw [hb, ← h.cur]; unfold Builder.newMessage; cases b.cur <;> simp
    · rw [hd] at h'; simp at h'
    · rcases hcur with e | e
      · exact absurd e hc
      · exact e
    · rw [hd] at h'; cases h'
    · simp only [Builder.newMessage, Bool.false_eq_true, false_iff]; exact built_snoc_not (by simp)
  | nextBlock n =>
    have hb := blockBegun_snoc ops (.nextBlock n)
    cases hd0 : declared ops with
    | none =>
      have hd : declared (ops ++ [.nextBlock n]) = none := by rw [declared_snoc, hd0]; rfl
      have hm := h.absent hd0
      have hcall : (b.call (.nextBlock n)).2 = { b with built := false } := by simp only [Builder.call, Builder.nextBlock, hm]
      rw [hcall]
      refine ⟨fun _ => hm, fun bs h' => ?_, ?_, fun bs x h' => ?_, fun h' => ?_, fun _ => h.noMsg hd0, ?_⟩
      · rw [hd] at h'; cases h'
      · rw [hb, hd0]; simpa using h.cur
      · rw [hd] at h'; cases h'
      · rw [hd] at h'; cases h'
      · simp only [Bool.false_eq_true, false_iff]; exact built_snoc_not (by simp)
    | some bs =>
      have hd : declared (ops ++ [.nextBlock n]) = some (bs ++ [(n, [])]) := by rw [declared_snoc, hd0]; rfl
      obtain ⟨nm, hm⟩ := h.msg bs hd0
      have hcall : (b.call (.nextBlock n)).2 = { b with built := false, msg := some (nm, addBlock ((bs.map (fun x => Block.mk' x.1 x.2)).foldl addBlock []) (BlockData.new n)), cur := .live n, curBlockName := n } := by
        simp only [Builder.call, Builder.nextBlock, hm]
      rw [hcall]
      refine ⟨fun h' => ?_, fun bs' h' => ?_, ?_, fun bs' x h' => ?_, fun h' => ?_, fun h' => ?_, ?_⟩
      · rw [hd] at h'; cases h'
      · rw [hd] at h'; cases h'
        exact ⟨nm, by simp [Block.mk']⟩
      · simp only [reduceCtorEq, false_iff, not_not]
        rw [hb, hd0]; exact .inr ⟨⟨n, rfl⟩, by simp⟩
      · rw [hd] at h'
        have := (List.append_inj' (Option.some.inj h') rfl).2
        simp only [List.cons.injEq, and_true] at this
        rw [← this]
      · rw [hd] at h'; simp at h'
      · rw [hd] at h'; cases h'
      · simp only [Bool.false_eq_true, false_iff]; exact built_snoc_not (by simp)
  | addData n v =>
    have hb : BlockBegun (ops ++ [.addData n v]) ↔ BlockBegun ops := by rw [blockBegun_snoc]; simp
    have hd : declared (ops ++ [.addData n v]) = (declared ops).map (·.addValue n v) := by rw [declared_snoc]; rfl
    have hnb := built_snoc_not (ops := ops) (op := .addData n v) (by simp)
    cases hd0 : declared ops with
    | none =>
      rw [hd0] at hd
      have hm := h.absent hd0
      have hcall : (b.call (.addData n v)).2 = { b with built := false } := by simp only [Builder.call, Builder.addData, h.noMsg hd0]
      rw [hcall]
      refine ⟨fun _ => hm, fun bs h' => ?_, ?_, fun bs x h' => ?_, fun h' => ?_, fun _ => h.noMsg hd0, ?_⟩
      · rw [hd] at h'; cases h'
      · rw [hb]; exact h.cur
      · rw [hd] at h'; cases h'
      · rw [hd] at h'; cases h'
      · simp only [Bool.false_eq_true, false_iff]; exact hnb
    | some bs =>
      obtain ⟨nm, hm⟩ := h.msg bs hd0
      rcases List.eq_nil_or_concat bs with rfl | ⟨bs', x, rfl⟩
      · have hd' : declared (ops ++ [.addData n v]) = some [] := by rw [hd, hd0]; rfl
        have hcall : (b.call (.addData n v)).2 = { b with built := false } := by
          by_cases hc : b.cur = .none
          · simp only [Builder.call, Builder.addData, hc]
          · simp only [Builder.call, Builder.addData, h.stale hd0 hc]
        rw [hcall]
        refine ⟨fun h' => ?_, fun bs h' => ?_, ?_, fun bs x h' => ?_, fun _ hc => h.stale hd0 hc, fun h' => ?_, ?_⟩
        · rw [hd'] at h'; cases h'
        · rw [hd'] at h'; cases h'; exact ⟨nm, hm⟩
        · rw [hb]; exact h.cur
        · rw [hd'] at h'; simp at h'
        · rw [hd'] at h'; cases h'
        · simp only [Bool.false_eq_true, false_iff]; exact hnb
      · rw [List.concat_eq_append] at hd0 hm
        have hlive := h.live bs' x hd0
        have hd' : declared (ops ++ [.addData n v]) = some (bs' ++ [(x.1, x.2 ++ [(n, v)])]) := by
          rw [hd, hd0]; simp [Declaration.addValue]
        have hm' : b.msg = some (nm, addBlock ((bs'.map (fun x => Block.mk' x.1 x.2)).foldl addBlock []) (Block.mk' x.1 x.2)) := by
          rw [hm]; simp
        obtain ⟨l, hl, hset⟩ := addBlock_replace ((bs'.map (fun x => Block.mk' x.1 x.2)).foldl addBlock []) (Block.mk' x.1 x.2)
          (fun y => y.addVariable { name := n, data := v }) rfl
        rw [mk'_name] at hl hset
        have hcall : (b.call (.addData n v)).2 = { b with built := false, msg := some (nm, addBlock ((bs'.map (fun x => Block.mk' x.1 x.2)).foldl addBlock [])
            ((Block.mk' x.1 x.2).addVariable { name := n, data := v })) } := by
          simp only [Builder.call, Builder.addData, hlive, hm', hl, hset]
        rw [hcall]
        refine ⟨fun h' => ?_, fun bs h' => ?_, ?_, fun bs y h' => ?_, fun h' => ?_, fun h' => ?_, ?_⟩
        · rw [hd'] at h'; cases h'
        · rw [hd'] at h'; cases h'
          exact ⟨nm, by simp [mk'_addVariable]⟩
        · rw [hb]; exact h.cur
        · rw [hd'] at h'
          have := (List.append_inj' (Option.some.inj h') rfl).2
          simp only [List.cons.injEq, and_true] at this
          rw [← this]; exact hlive
        · rw [hd'] at h'; simp at h'
        · rw [hd'] at h'; cases h'
        · simp only [Bool.false_eq_true, false_iff]; exact hnb
  | build =>
    have hb : BlockBegun (ops ++ [.build]) ↔ BlockBegun ops := by rw [blockBegun_snoc]; simp
    have hd : declared (ops ++ [.build]) = declared ops := by rw [declared_snoc]; rfl
    have hbs : (∃ pre, ops ++ [BuilderOp.build] = pre ++ [.build] ∧ declared pre ≠ none) ↔ declared ops ≠ none := by
      constructor
      · rintro ⟨pre, h1, h2⟩
        rw [(List.append_inj' h1 rfl).1]; exact h2
      · intro h2; exact ⟨ops, rfl, h2⟩
    cases hd0 : declared ops with
    | none =>
      have hcall : (b.call .build).2 = b := by simp only [Builder.call, Builder.buildMessage, h.absent hd0]
      rw [hcall]
      refine ⟨by rw [hd]; exact h.absent, by rw [hd]; exact h.msg, by rw [hb]; exact h.cur, by rw [hd]; exact h.live, by rw [hd]; exact h.stale,
        by rw [hd]; exact h.noMsg, ?_⟩
      rw [hbs, hd0, h.built]
      constructor
      · rintro ⟨pre, h1, h2⟩
        rw [h1, declared_snoc] at hd0
        exact absurd hd0 h2
      · intro h'; exact absurd rfl h'
    | some bs =>
      obtain ⟨nm, hm⟩ := h.msg bs hd0
      have hcall : (b.call .build).2 = { b with built := true } := by simp only [Builder.call, Builder.buildMessage, hm]
      rw [hcall]
      refine ⟨by rw [hd]; exact h.absent, by rw [hd]; exact h.msg, by rw [hb]; exact h.cur, by rw [hd]; exact h.live, by rw [hd]; exact h.stale,
        by rw [hd]; exact h.noMsg, ?_⟩
      rw [hbs, hd0]; simp

theorem knows (ops : List BuilderOp) : Knows ops (Builder.calls {} ops) := by
  have key : ∀ (post pre : List BuilderOp) (b : Builder), Knows pre b → Knows (pre ++ post) (b.calls post) := by
    intro post
    induction post with
    | nil => intro pre b h; rw [List.append_nil]; exact h
    | cons op post ih =>
      intro pre b h
      have := ih (pre ++ [op]) _ (knows_call h op)
      rw [List.append_assoc] at this
      exact this
  exact key ops [] {} knows_nil

/-- **C91.** After any history of calls, including ones that raised: `new_message` works; `next_block` works if and only if there is a message. -/
theorem C91_new_and_next (ops : List BuilderOp) (name : String) :
    ((Builder.calls {} ops).call (.newMessage name)).1 = .ok none ∧
    ((Builder.calls {} ops).call (.nextBlock name)).1 = (if declared ops = none then .error .attributeError else .ok none) := by
  refine ⟨rfl, ?_⟩
  have h := knows ops
  generalize Builder.calls {} ops = b at h
  cases hd : declared ops with
  | none => simp only [Builder.call, Builder.nextBlock, h.absent hd, if_true]
  | some bs =>
    obtain ⟨nm, hm⟩ := h.msg bs hd
    simp [Builder.call, Builder.nextBlock, hm]

/-- `add_data` works if and only if a block was ever begun, in this message or another. -/
theorem C91_add_data (ops : List BuilderOp) (var : String) (v : PyVal) :
    (BlockBegun ops → ((Builder.calls {} ops).call (.addData var v)).1 = .ok none) ∧
    (¬ BlockBegun ops → ((Builder.calls {} ops).call (.addData var v)).1 = .error .attributeError) := by
  have h := knows ops
  generalize Builder.calls {} ops = b at h
  constructor
  · intro hb
    have hc : b.cur ≠ .none := fun hc => h.cur.mp hc hb
    simp only [Builder.call, Builder.addData]
    cases hcur : b.cur with
    | none => exact absurd hcur hc
    | stale => rfl
    | live bn =>
      simp only
      cases b.msg with
      | none => rfl
      | some x =>
        simp only
        cases Dict.get? x.2 bn <;> rfl
  · intro hb
    simp only [Builder.call, Builder.addData, h.cur.mpr hb]

/-- `build_message` returns what was declared since the last `new_message`, and the number of its block names; without a message it raises. -/
theorem C91_build (ops : List BuilderOp) :
    (declared ops = none → ((Builder.calls {} ops).call .build).1 = .error .attributeError) ∧
    ∀ bs, declared ops = some bs → ∃ d : Dict String (List VarMap), ((Builder.calls {} ops).call .build).1 = .ok (some (d, d.keys.length)) ∧
      d.keys.Nodup ∧ Shows d bs := by
  have h := knows ops
  generalize Builder.calls {} ops = b at h
  constructor
  · intro hd
    simp only [Builder.call, Builder.buildMessage, h.absent hd]
  · intro bs hd
    obtain ⟨nm, hm⟩ := h.msg bs hd
    refine ⟨_, ?_, buildInstance_nodup _ [] List.nodup_nil, builder_shows bs⟩
    simp only [Builder.call, Builder.buildMessage, hm, Dict.keys, List.length_map]

/-- `is_built` tells whether the last call was a successful `build_message`. -/
theorem C91_is_built (ops : List BuilderOp) :
    (Builder.calls {} ops).isBuilt = true ↔ ∃ pre, ops = pre ++ [.build] ∧ declared pre ≠ none := (knows ops).built

/-- A history with calls that raise, an abandoned message and values for a block of it. -/
def builderDemo : List BuilderOp :=
  [.nextBlock "A", .addData "x" (.num (.int 1)), .build, .newMessage "M", .addData "x" (.num (.int 2)), .nextBlock "A", .addData "x" (.num (.int 3)),
   .newMessage "N", .addData "x" (.num (.int 4)), .nextBlock "B", .addData "y" (.num (.int 5)), .addData "y" (.num (.int 6)), .nextBlock "B",
   .addData "z" (.num (.int 7))]

example : BlockBegun (builderDemo.take 8) ∧ declared (builderDemo.take 8) = some [] :=
  ⟨⟨builderDemo.take 5, "A", [.addData "x" (.num (.int 3)), .newMessage "N"], rfl, by decide +kernel⟩, by decide +kernel⟩

example : declared (builderDemo.take 3) = none ∧ (declared builderDemo).map (·.map (·.1)) = some ["B", "B"] ∧
    ((builderDemo.foldl (fun (s : List Bool × Builder) op => (s.1 ++ [match (s.2.call op).1 with | .ok _ => true | .error _ => false], (s.2.call op).2)) ([], {})).1 =
      [false, false, false, true, false, true, true, true, true, true, true, true, true, true]) := by decide +kernel

end Pyogp
