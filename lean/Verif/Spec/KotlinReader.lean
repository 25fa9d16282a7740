/-
A reader of Kotlin source text: from the characters of the generated models to the declarations that they denote.

It is written from the grammar of the language fragment, without reference to the generator or to the functions
that print trees: the text is cut into words, literals and symbols by `Spec/Reader.lean`, the ends of lines are
kept, because they end declarations, and the rest is read by recursive descent.  Every name is checked to be an
identifier and not a keyword.  A text outside of the fragment is refused.  The reader is deterministic, so a text
has at most one reading.
-/
import Verif.Sem.Kotlin
import Verif.Spec.LineReader
import Verif.Spec.MobileModels
import Verif.Spec.MobileConsts
import Verif.Spec.Idents
import Verif.Spec.Dart
import Verif.Spec.Names
namespace TPB.Spec.KotlinReader
open TPB.Kotlin Pieces Combinators

/-- An identifier that can be a name in Kotlin. -/
def KotlinId (n : String) : Prop := isIdent n = true ∧ KotlinName n

instance (n : String) : Decidable (KotlinId n) := by unfold KotlinId; infer_instance

def name : P String
  | .word w :: ts => if KotlinId w then some (w, ts) else none
  | _ => none

/-- `Foo` or `Foo<A, B>`. -/
def ty : Nat → P Ty
  | 0 => failure
  | fuel + 1 => do
    let n ← name
    if ← next (.sym '<') then
      text "<"
      let args ← sep (ty fuel) '>'
      pure (.app n args)
    else
      pure (.named n)

def anyTy : P Ty := fun ts => ty ts.length ts

/-- `T.createDefault()` or `T.createDefault<A, B>()`, or, without a point after the word, `listOf()`. -/
def creation : P Expr := do
  if ← second (.sym '.') then
    let n ← name
    text ".createDefault"
    if ← next (.sym '<') then
      text "<"
      let args ← sep anyTy '>'
      text "()"
      pure (.createGeneric n args)
    else
      text "()"
      pure (.create n)
  else
    text "listOf()"
    pure .emptyList

def expr : P Expr := fun ts =>
  match literal ts with
  | some (s, r) => some (.lit s, r)
  | none => creation ts

/-- `e,` or `name = e,` on a line. -/
def arg : P (Option String × Expr) := do
  if ← second (.sym '=') then
    let n ← name
    text "="
    let e ← expr
    text ","
    endLine
    pure (some n, e)
  else
    let e ← expr
    text ","
    endLine
    pure (none, e)

/-- `Obj`, or `Cls(..)` with one argument on each line. -/
def new : P New := do
  let n ← name
  if ← next (.sym '(') then
    text "("
    mayEndLine
    let args ← until_ (.sym ')') arg
    pure (.call n args)
  else
    pure (.object n)

/-- `companion object { fun createDefault(): T = value }` -/
def companion : P Companion := do
  text "companion object {"
  endLine
  text "fun createDefault():"
  let t ← name
  text "="
  let v ← new
  endLine
  text "}"
  endLine
  pure ⟨t, v⟩

/-- `{ companion }` -/
def body : P Companion := do
  text "{"
  endLine
  let c ← companion
  text "}"
  pure c

/-- `val p: T,` on a line. -/
def param : P (String × Ty) := do
  text "val"
  let n ← name
  text ":"
  let t ← anyTy
  text ","
  endLine
  pure (n, t)

/-- What may be after the first symbol: a supertype, a body. -/
def ifNext {α : Type} (c : Char) (p : P α) : P (Option α) := do
  if ← next (.sym c) then
    let a ← p
    pure (some a)
  else
    pure none

/-- `class C(val p: T, ..) : I { companion }` after `data`, if it is a data class. -/
def cls (isData : Bool) : P Item := do
  text "class"
  let n ← name
  text "("
  mayEndLine
  let ps ← until_ (.sym ')') param
  let s ← ifNext ':' (do text ":"; name)
  let c ← ifNext '{' body
  endLine
  pure (.cls n isData ps s c)

/-- A declaration and the end of its last line. -/
def item : P Item := do
  if ← next (.word "sealed") then
    text "sealed interface"
    let n ← name
    let c ← body
    endLine
    pure (.interface n c)
  else if ← next (.word "object") then
    text "object"
    let n ← name
    text ":"
    let s ← name
    endLine
    pure (.object n s)
  else if ← next (.word "data") then
    text "data"
    cls true
  else
    cls false

/-- The declarations of a text. -/
def readModels (s : String) : Option (List Item) := wholeLines item s

/-! ### Schemas -/

/-- Schemas whose names, in the spelling of the generator, can be names in Kotlin. -/
structure KotlinReadable (x : ExtF) (S : List ASTNode) : Prop where
  types : ∀ d ∈ S, ∀ t ∈ directTypes d, ∀ w ∈ typeWords t, KotlinId w
  structs : ∀ n, .struct n ∈ S → KotlinId n.id ∧ KotlinId (x.pascal n.id) ∧ ∀ f ∈ n.fields, KotlinId (x.camel f.name)
  enums : ∀ n, .enum n ∈ S → KotlinId n.id
  variants : ∀ n, .enum n ∈ S → ∀ i ∈ n.items, KotlinId (x.pascal (n.id ++ i.id))
  first : ∀ n, .enum n ∈ S → ∀ i ∈ n.items.head?, KotlinId (n.id ++ i.id) ∧
    ∀ p id fs, i = .struct p id fs → ∀ f ∈ fs, KotlinId (x.camel f.name)
  fields : ∀ n, .enum n ∈ S → ∀ p id fs, .struct p id fs ∈ n.items → ∀ f ∈ fs, KotlinId f.name

end TPB.Spec.KotlinReader
