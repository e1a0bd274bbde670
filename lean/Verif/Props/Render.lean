import Verif.Proofs.RenderParsed
import Verif.Proofs.RenderExact
import Verif.Props.Templates

/-!
# Messages as text (C68)
-/

namespace Pyogp
open Spec

/-- A message constructed from `Block`s in any way is `BuiltFromBlocks`, so that the next two theorems say when it can be shown. -/
theorem C68_constructed (name : String) (args : List BlockArg) (h : ∀ b ∈ flatArgs args, ∃ n kw, b = Block.mk' n kw) :
    BuiltFromBlocks (Message.new name args) := builtFromBlocks_new name args h

/-- **C68.** A message built from blocks, none of whose values is a `unicode` object with non-ASCII characters, can be shown as text. -/
theorem C68_built (m : Message) (hm : BuiltFromBlocks m) (ht : ¬ HasNonAsciiText m) : ∃ t, m.render = .ok t := by
  rcases Message.render_untyped hm with ⟨h, _⟩ | ⟨_, h⟩
  · exact absurd h ht
  · exact h

/-- **C68, exception:** every message built from blocks that has such a value raises `UnicodeEncodeError` (a `ValueError`) when shown. -/
theorem C68_text_raises (m : Message) (hm : BuiltFromBlocks m) (ht : HasNonAsciiText m) : m.render = .error .valueError := by
  rcases Message.render_untyped hm with ⟨_, h⟩ | ⟨h, _⟩
  · exact h
  · exact absurd ht h

example : BuiltFromBlocks (Message.new "ChatFromViewer" [.one (Block.mk' "ChatData" [("Message", .unicode [0xc3, 0xa9]), ("Type", .num (.int 1))])]) ∧
    HasNonAsciiText (Message.new "ChatFromViewer" [.one (Block.mk' "ChatData" [("Message", .unicode [0xc3, 0xa9]), ("Type", .num (.int 1))])]) := by
  refine ⟨C68_constructed _ _ ?_, ?_⟩
  · intro b hb
    simp only [flatArgs, List.mem_cons, List.not_mem_nil, or_false] at hb
    exact ⟨_, _, hb⟩
  · exact ⟨_, List.mem_cons_self, _, List.mem_cons_self, "Message", by decide, _, [0xc3, 0xa9], 0xc3, rfl, rfl, by decide, by decide⟩

/-- **C68, received messages.** If no Fixed field in the dictionary has an odd length, every message parsed from any datagram can be
shown. -/
theorem C68_received (env : DeserEnv) (st : DeserState) (dg : Bytes) (m : Message)
    (he : ∀ f n t, env.dict.getTemplateByPair f n = some t → ∀ tb ∈ t.blocks, ∀ v ∈ tb.vars, v.type = .fixed → v.size % 2 = 0)
    (h : (deserialize env st dg).1 = .ok (some m)) : ∃ t, m.render = .ok t := by
  obtain ⟨_, _, _, t, _, _, _, hh, _, _, hd⟩ := deserialize_inv h
  refine decodeData_render ?_ hd
  unfold decodeHeader at hh
  simp only [bind_ok] at hh
  obtain ⟨f, _, n, _, hh⟩ := hh
  exact he f n.toNat t (Except.ok.inj hh)

/-- **C68, exactly.** Whatever types its variables are marked with, a message can be shown if and only if each variable can be shown by itself, and there are
not both `unicode` text and a `str` with a byte over 127 among them, in whatever order (Python cannot put them together: `UnicodeDecodeError`). -/
theorem C68_exact (m : Message) (hm : ∀ p ∈ m.blocks, ∀ b ∈ p.2, ∀ n ∈ b.varList, ∃ v, b.vars.get? n = some v) :
    (∃ t, m.render = .ok t) ↔ (∀ v, HasVariable m v → Showable v) ∧
      ¬ ((∃ v, HasVariable m v ∧ ShownAsUnicode v) ∧ ∃ v, HasVariable m v ∧ ShownAsHighBytes v) := m.render_iff hm

/-- Both kinds in one message. -/
example :
    let m := Message.new "ChatFromViewer" [.one (((⟨"ChatData", [], [], 0⟩ : BlockData).addVariable ⟨"A", .str [0xe9], none⟩).addVariable ⟨"B", .unicode [65], some .variable⟩)]
    (∀ p ∈ m.blocks, ∀ b ∈ p.2, ∀ n ∈ b.varList, ∃ v, b.vars.get? n = some v) ∧ m.render = .error .valueError := by
  refine ⟨?_, by decide +kernel⟩
  intro p hp b hb n hn
  simp only [Message.new, Message.parseBlocks, Message.addBlock, addBlock, Dict.get?, List.find?, Dict.set, List.mem_cons, List.not_mem_nil, or_false] at hp
  subst hp
  simp only [List.mem_cons, List.not_mem_nil, or_false] at hb
  subst hb
  simp only [BlockData.addVariable, List.nil_append, List.cons_append, List.mem_cons, List.not_mem_nil, or_false] at hn
  rcases hn with rfl | rfl <;> exact ⟨_, rfl⟩

/-- Does every Fixed field have an even length? -/
def fixedEven (t : Template) : Bool :=
  t.blocks.all fun tb => tb.vars.all fun v => match v.type with
    | .fixed => Nat.beq (v.size % 2) 0
    | _ => true

theorem Embedded.fixed_even : all_templates.all fixedEven = true := by kernel_rfl

/-- **C68 for received messages in the default configuration**: with the embedded templates, every message parsed from any datagram can be
shown. -/
theorem C68_received_default (env : DeserEnv) (hd : Embedded.Dictionary env.dict) (st : DeserState) (dg : Bytes) (m : Message)
    (h : (deserialize env st dg).1 = .ok (some m)) : ∃ t, m.render = .ok t := by
  refine C68_received env st dg m ?_ h
  intro f n t ht tb htb v hv hf
  obtain ⟨t₀, hm, rfl, _, _⟩ := Embedded.dictionary_pair hd ht
  have h0 := List.all_eq_true.mp Embedded.fixed_even t₀ hm
  have h1 := List.all_eq_true.mp (List.all_eq_true.mp h0 tb htb) v hv
  rw [hf] at h1
  exact Nat.eq_of_beq_eq_true h1

/-- A template with a Fixed field of three bytes. -/
def oddTemplate : Template := { name := "Odd", freq := .high, msgNum := 7, msgNumHex := [7], blocks := [⟨"B", .single, 0, [⟨"F", .fixed, 3⟩]⟩] }

/-- **C68, exception** for other templates: a message with a Fixed field of odd length is received all right, but showing it raises
`struct.error`. -/
theorem C68_odd_fixed_raises :
    let env : DeserEnv := ⟨demoRt, ⟨[("Odd", oddTemplate)], [((.high, 7), oddTemplate)]⟩, [], some ["Odd"], true⟩
    okSome (deserialize env {} [0, 0, 0, 0, 9, 0, 7, 1, 2, 3]).1
      (fun m => decide (m.render = .error .structError) && decide (m.blocks.map (fun p => (p.1, p.2.map (fun b => b.getItem "F"))) = [("B", [.ok (.str [1, 2, 3])])])) := by
  decide +kernel

end Pyogp
