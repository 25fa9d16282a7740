/-
A reader of Swift source text: from the characters of the generated models to the declarations that they denote.

It is written from the grammar of the language fragment, without reference to the generator or to the functions
that print trees: the text is cut into words, literals and symbols by `Spec/Reader.lean`, the ends of lines are
kept, because they end declarations, and the rest is read by recursive descent.  Every name is checked to be an
identifier and not a keyword.  Comments are kept where the trees have them.  A text outside of the fragment is
refused.  The reader is deterministic, so a text has at most one reading.
-/
import Verif.Sem.Swift
import Verif.Spec.LineReader
import Verif.Spec.MobileModels
import Verif.Spec.MobileConsts
import Verif.Spec.Idents
import Verif.Spec.Dart
import Verif.Spec.Names
namespace TPB.Spec.SwiftReader
open TPB.Swift Pieces Combinators

/-- An identifier that can be a name in Swift. -/
def SwiftId (n : String) : Prop := isIdent n = true ∧ SwiftName n

instance (n : String) : Decidable (SwiftId n) := by unfold SwiftId; infer_instance

def name : P String
  | .word w :: ts => if SwiftId w then some (w, ts) else none
  | _ => none

/-- `Foo`, `Foo<A, B>` or `[A]`. -/
def ty : Nat → P Ty
  | 0 => failure
  | fuel + 1 => do
    if ← next (.sym '[') then
      text "["
      let a ← ty fuel
      text "]"
      pure (.array [a])
    else
      let n ← name
      if ← next (.sym '<') then
        text "<"
        let args ← sep (ty fuel) '>'
        pure (.app n args)
      else
        pure (.named n)

def anyTy : P Ty := fun ts => ty ts.length ts

/-- `[]`, `T.createDefault()` or `T<A, B>.createDefault()`. -/
def creation : P Expr := do
  if ← next (.sym '[') then
    text "[]"
    pure .emptyArray
  else
    let n ← name
    if ← next (.sym '<') then
      text "<"
      let args ← sep anyTy '>'
      text ".createDefault()"
      pure (.createGeneric n args)
    else
      text ".createDefault()"
      pure (.create n)

def expr : P Expr := fun ts =>
  match literal ts with
  | some (s, r) => some (.lit s, r)
  | none => creation ts

/-- `/* word */` -/
def comment : P String := do
  text "/*"
  let c ← word
  text "*/"
  pure c

/-- `label: e`, `/* comment */ e` or `e`. -/
def arg : P Arg := do
  if ← next (.sym '/') then
    let c ← comment
    let e ← expr
    pure (.commented c e)
  else if ← second (.sym ':') then
    let n ← name
    text ":"
    let e ← expr
    pure (.labelled n e)
  else
    let e ← expr
    pure (.plain e)

/-- `()`, or arguments on lines of their own. -/
def args : P (List Arg) := do
  text "("
  if ← next (.sym ')') then
    text ")"
    pure []
  else
    rows arg ')'

/-- `T(..)`, `.case` or `.case(..)`. -/
def new : P New := do
  if ← next (.sym '.') then
    text "."
    let n ← name
    if ← next (.sym '(') then
      let as ← args
      pure (.caseOf n as)
    else
      pure (.case n)
  else
    let n ← name
    let as ← args
    pure (.inst n as)

/-- `func createDefault() -> T { return value }`, after `static`. -/
def default : P Default := do
  text "func createDefault() ->"
  let t ← name
  text "{"
  endLine
  text "return"
  let v ← new
  endLine
  text "}"
  endLine
  pure ⟨t, v⟩

/-- `var f: T` on a line. -/
def field : P (String × Ty) := do
  text "var"
  let n ← name
  text ":"
  let t ← anyTy
  endLine
  pure (n, t)

/-- `T` or `/* comment */ T`. -/
def param : P (Option String × Ty) := do
  if ← next (.sym '/') then
    let c ← comment
    let t ← anyTy
    pure (some c, t)
  else
    let t ← anyTy
    pure (none, t)

/-- `case id` or `case id(..)`, with one type on each line. -/
def case : P Case := do
  text "case"
  let n ← name
  if ← next (.sym '(') then
    text "("
    let ps ← rows param ')'
    endLine
    pure ⟨n, ps⟩
  else
    endLine
    pure ⟨n, []⟩

/-- `struct S { fields default }` or `enum E { cases default }`, and the end of the last line. -/
def item : P Item := do
  if ← next (.word "struct") then
    text "struct"
    let n ← name
    text "{"
    endLine
    let fs ← until_ (.word "static") (orBlank field)
    let d ← default
    text "}"
    endLine
    pure (.struct n (fs.filterMap id) d)
  else
    text "enum"
    let n ← name
    text "{"
    endLine
    let cs ← until_ (.word "static") (orBlank case)
    let d ← default
    text "}"
    endLine
    pure (.enum n (cs.filterMap id) d)

/-- The declarations of a text. -/
def readModels (s : String) : Option (List Item) := wholeLines item s

/-! ### Schemas -/

/-- Every list has one type of elements. -/
inductive ListsOk : TypeId → Prop
  | plain {t} : (∀ c gs, t ≠ .generic c gs) → ListsOk t
  | generic {c gs} : (c = "Vec" → gs.length = 1) → (∀ g ∈ gs, ListsOk g) → ListsOk (.generic c gs)

/-- Schemas whose names, in the spelling of the generator, can be names in Swift, and whose lists have one type of
elements. -/
structure SwiftReadable (x : ExtF) (S : List ASTNode) : Prop where
  types : ∀ d ∈ S, ∀ t ∈ directTypes d, ListsOk t ∧ ∀ w ∈ typeWords t, SwiftId w
  structs : ∀ n, .struct n ∈ S → SwiftId n.id ∧ SwiftId (x.pascal n.id) ∧ ∀ f ∈ n.fields, SwiftId (x.camel f.name)
  enums : ∀ n, .enum n ∈ S → SwiftId n.id ∧ SwiftId (x.pascal n.id) ∧ ∀ i ∈ n.items, SwiftId (x.camel i.id)
  first : ∀ n, .enum n ∈ S → ∀ p id fs, .struct p id fs ∈ n.items.head? → ∀ f ∈ fs, isIdent (x.camel f.name) = true
  fields : ∀ n, .enum n ∈ S → ∀ p id fs, .struct p id fs ∈ n.items → ∀ f ∈ fs, isIdent f.name = true

end TPB.Spec.SwiftReader
