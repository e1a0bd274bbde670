import Verif.Data.Template1
import Verif.Data.Template2
import Verif.Data.Template3
import Verif.Data.Template4
import Verif.Data.Template5
import Verif.Data.Template6
import Verif.Data.Template7
import Verif.Data.Template8

/-! Generated by `tools/gen_template.py`: all of `message/data/message_template.msg`. -/

namespace Pyogp.Embedded

/-- The first lines, up to and including the version. -/
def headLines : List (List Char) :=
  [chars! "// Linden Lab development message templates",
   chars! "",
   chars! "version 2.0"]

/-- The lines after the last message. -/
def tailLines : List (List Char) :=
  [chars! ""]

theorem head_ok (ver : PyVersion) : parseLines ver ⟨none, 0, []⟩ headLines = .ok ⟨some ['2', '.', '0'], 0, []⟩ := by kernel_rfl

theorem tail_ok (ver : PyVersion) (v : List Char) (older : List RawTemplate) : parseLines ver ⟨some v, 0, older⟩ tailLines = .ok ⟨some v, 0, older⟩ := by kernel_rfl

/-- All parts. -/
def all_lines : List (List (List Char)) := lines1 ++ lines2 ++ lines3 ++ lines4 ++ lines5 ++ lines6 ++ lines7 ++ lines8

/-- All parts. -/
def all_raws : List RawTemplate := raws1 ++ raws2 ++ raws3 ++ raws4 ++ raws5 ++ raws6 ++ raws7 ++ raws8

/-- All parts. -/
def all_templates : List Template := templates1 ++ templates2 ++ templates3 ++ templates4 ++ templates5 ++ templates6 ++ templates7 ++ templates8

/-- All parts. -/
def all_names : List (List Char) := names1 ++ names2 ++ names3 ++ names4 ++ names5 ++ names6 ++ names7 ++ names8

theorem all_parsed : List.Forall₂ ChunkOk all_lines all_raws := (forall₂_append (forall₂_append (forall₂_append (forall₂_append (forall₂_append (forall₂_append (forall₂_append parsed1 parsed2) parsed3) parsed4) parsed5) parsed6) parsed7) parsed8)

theorem all_known : List.Forall₂ (fun r t => RawTemplate.known r = some t) all_raws all_templates := (forall₂_append (forall₂_append (forall₂_append (forall₂_append (forall₂_append (forall₂_append (forall₂_append known1 known2) known3) known4) known5) known6) known7) known8)

theorem all_named : List.Forall₂ (fun (t : Template) w => t.name = String.ofList w) all_templates all_names := (forall₂_append (forall₂_append (forall₂_append (forall₂_append (forall₂_append (forall₂_append (forall₂_append named1 named2) named3) named4) named5) named6) named7) named8)

theorem all_checked : ∀ t ∈ all_templates, Checked t := (forall_mem_append (forall_mem_append (forall_mem_append (forall_mem_append (forall_mem_append (forall_mem_append (forall_mem_append checked1 checked2) checked3) checked4) checked5) checked6) checked7) checked8)

theorem all_lines_split : all_lines = all_lines.take 298 ++ c298 :: all_lines.drop 299 := by kernel_rfl

/-- The lines of `message_template.msg`. -/
def file : List (List Char) := headLines ++ all_lines.flatten ++ tailLines

end Pyogp.Embedded
