/- Model of /repo/src/writer.rs: the indenting text writer used by all generators. -/
namespace TPB

/-- Rust's `str::repeat`. -/
def repeatStr (s : String) : Nat → String
  | 0 => ""
  | n + 1 => s ++ repeatStr s n

/-- writer.rs 1-5 `Writer`.  (`String` capacity is not modelled.) -/
structure Writer where
  res : String
  tab : String
  constTabs : Nat
  deriving Repr, DecidableEq, Inhabited

namespace Writer

/-- writer.rs 8-14 `new`. -/
def new (tabSize : Nat) : Writer := ⟨"", repeatStr " " tabSize, 0⟩

/-- writer.rs 58-62 `Default::default`. -/
def default : Writer := new 4

/-- writer.rs 16-18 `push_tab`. -/
def pushTab (w : Writer) : Writer := { w with constTabs := w.constTabs + 1 }

/-- writer.rs 20-22 `pop_tab`; `none` is the arithmetic-underflow panic of `const_tabs -= 1`. -/
def popTab (w : Writer) : Option Writer :=
  match w.constTabs with
  | 0 => none
  | n + 1 => some { w with constTabs := n }

/-- writer.rs 24-26 `show`. -/
def «show» (w : Writer) : String := w.res

/-- writer.rs 28-30 `write_tabs`. -/
def writeTabs (w : Writer) : Writer := { w with res := w.res ++ repeatStr w.tab w.constTabs }

/-- writer.rs 32-34 `write`. -/
def write (w : Writer) (data : String) : Writer := { w with res := w.res ++ data }

/-- writer.rs 36-39 `write_tab`. -/
def writeTab (w : Writer) (tab : Nat) (data : String) : Writer :=
  { w with res := w.res ++ repeatStr w.tab (w.constTabs + tab) ++ data }

/-- writer.rs 41-45 `writeln`. -/
def writeln (w : Writer) (data : String) : Writer :=
  { w with res := w.res ++ repeatStr w.tab w.constTabs ++ data ++ "\n" }

/-- writer.rs 47-49 `new_line`. -/
def newLine (w : Writer) : Writer := { w with res := w.res ++ "\n" }

/-- writer.rs 51-55 `writeln_tab`. -/
def writelnTab (w : Writer) (tab : Nat) (data : String) : Writer :=
  { w with res := w.res ++ repeatStr w.tab (w.constTabs + tab) ++ data ++ "\n" }

end Writer

/-- A loop `for (i, x) in xs.iter().enumerate()` updating a writer. -/
def foldIdx {α β : Type} (f : β → Nat → α → β) : Nat → List α → β → β
  | _, [], b => b
  | i, x :: xs, b => foldIdx f (i + 1) xs (f b i x)

/-- `[..].join(", ")` on a list of strings. -/
def joinStr (sep : String) : List String → String
  | [] => ""
  | [s] => s
  | s :: t :: ts => s ++ sep ++ joinStr sep (t :: ts)

/-- `if res.ends_with("\n\n") { res.pop(); }`, the trimming step of the generators
(e.g. rust_generator.rs 96-98). -/
def trimOnce (s : String) : String :=
  match s.toList.reverse with
  | '\n' :: '\n' :: cs => String.ofList ('\n' :: cs).reverse
  | _ => s

/-- On the reversed text: `while res.ends_with("\n\n") { res.pop(); }`. -/
def trimRev : List Char → List Char
  | '\n' :: '\n' :: cs => trimRev ('\n' :: cs)
  | cs => cs

/-- `while res.ends_with("\n\n") { res.pop(); }` (rust_generator.rs 74-76, dart_generator.rs 74-76). -/
def trimAll (s : String) : String := String.ofList (trimRev s.toList.reverse).reverse

/-- Functions of external crates that the generators call: `to_case(Case::Camel)`,
`to_case(Case::Pascal)` (crate convert_case 0.5.0), and the standard library's
`parse::<f64>` followed by `format!("{}", f64)` (decimal source text to printed text). -/
structure Ext where
  camel : String → String
  pascal : String → String
  fmtF64 : String → String

end TPB
