/- What a run of the command-line program should do, said without the program's states. -/
import Verif.Model.Main
namespace TPB.Main

/-- A path written in a configuration, as seen from the directory of the configuration: absolute paths stand for
themselves, others begin at the directory. -/
def located (dir : String) (p : String) : String :=
  match p.toList, dir.toList.reverse with
  | '/' :: _, _ => p
  | _, [] => p
  | _, '/' :: _ => dir ++ p
  | _, _ :: _ => dir ++ "/" ++ p

/-- The bytes of a text in UTF-8. -/
def utf8 (s : String) : List UInt8 := s.toUTF8.data.toList

/-- The text in a file, if there is a file and it is UTF-8. -/
def World.text (w : World) (p : String) : Option String :=
  match w.files p with
  | some bs => String.fromUTF8? ⟨bs.toArray⟩
  | none => none

/-- The schema in `text` is accepted, and `data` is the generated text for the job's language and sections. -/
def Accepts (x : Ext) (j : Job) (text data : String) : Prop :=
  ∃ ts S, tokenize text = .ok ts ∧ parse ts = .ok S ∧
    match j.lang with
    | .rust => RustGen.generate x S (!j.skipModels) (!j.skipBuffers) (!j.skipRpc) = .ok data
    | .dart => DartGen.generate x S (!j.skipModels) (!j.skipBuffers) (!j.skipRpc) = .ok data

/-- All that a successful generation changes: the output file, or standard output if the output is `-`. -/
def OutputDone (j : Job) (data : String) (w w' : World) : Prop :=
  if j.output = "-" then
    w'.files = w.files ∧ w'.stdout = w.stdout ++ utf8 data ++ utf8 "\n"
  else
    w'.files j.output = some (utf8 data) ∧ (∀ q, q ≠ j.output → w'.files q = w.files q) ∧ w'.stdout = w.stdout

/-- The program can end with exit `r`, leaving the world `w'`. -/
def Ends (lib : Lib) (c : Command) (w : World) (r : Exit) (w' : World) : Prop :=
  ∃ as, (run lib c w as).proc = .ended r ∧ (run lib c w as).world = w'

/-- The program can be stopped at a moment where the world is `w'`. -/
def Reaches (lib : Lib) (c : Command) (w w' : World) : Prop :=
  ∃ as, (run lib c w as).world = w'

/-- Single generations one after another, up to the first that does not succeed. -/
inductive Batch (lib : Lib) : List Job → World → Exit → World → Prop
  | nil (w : World) : Batch lib [] w .ok w
  | cons (j : Job) (js : List Job) (w w1 w2 : World) (r : Exit) :
      Ends lib (.generate j) w .ok w1 → Batch lib js w1 r w2 → Batch lib (j :: js) w r w2
  | stop (j : Job) (js : List Job) (w w1 : World) (r : Exit) :
      r ≠ .ok → Ends lib (.generate j) w r w1 → Batch lib (j :: js) w r w1

/-- The generations a configuration asks for: the rust entries in order, then the dart entries in order;
paths are relative to the directory of the configuration. -/
def entries (dir : String) (d : YamlData) : List Job :=
  (d.rust.getD []).map (fun i => ⟨located dir i.src, located dir i.dest, .rust, i.skipModels, i.skipBuffers, i.skipRpc⟩) ++
  (d.dart.getD []).map (fun i => ⟨located dir i.src, located dir i.dest, .dart, i.skipModels, i.skipBuffers, i.skipRpc⟩)

end TPB.Main
