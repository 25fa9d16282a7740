/-
A reader of Rust source text: from the characters of the two generated sections for types (declarations
with their `impl Default` blocks, and `impl IntoVMBuffers` blocks) to the program that they denote.

It is written from the grammar of the language fragment, without reference to the generator or to the
functions that print trees: the text is cut into words, literals and symbols by `Spec/Reader.lean`, line
ends are dropped, and the rest is read by recursive descent.  Every name is checked to be an identifier and
not a keyword.  A text outside of the fragment is refused.  The reader is deterministic, so a text has at
most one reading.
-/
import Verif.Sem.RustEval
import Verif.Spec.Pieces
import Verif.Spec.RustTyping
import Verif.Spec.Names
namespace TPB.Spec.RustReader
open Rust Pieces

/-- An identifier that is not a keyword. -/
def name : Reader String
  | .word w :: ts => if isIdent w = true ∧ w ∉ rustKeywords then some (w, ts) else none
  | _ => none

/-- A name, a colon, an item, a comma. -/
def named {α : Type} (item : Reader α) : Reader (String × α) := fun ts =>
  match before (code ":") name ts with
  | none => none
  | some (n, r) =>
    match before (code ",") item r with
    | none => none
    | some (a, r) => some ((n, a), r)

/-- What may follow the name of a variant: nothing, items in parentheses, or named items in braces. -/
def payload {α : Type} (item : Reader α) : Reader (Payload α)
  | .sym '(' :: ts => (upTo ')' (before (code ",") item) ts).map (fun x => (.tuple x.1, x.2))
  | .sym '{' :: ts => (upTo '}' (named item) ts).map (fun x => (.named x.1, x.2))
  | ts => some (.unit, ts)

/-! ### Types -/

mutual
/-- `Foo` or `Foo<A, B>`. -/
def ty : Nat → Reader Ty
  | 0, _ => none
  | fuel + 1, ts =>
    match name ts with
    | some (n, .sym '<' :: r) => (tys fuel r).map (fun x => (.app n x.1, x.2))
    | some (n, r) => some (.named n, r)
    | none => none
/-- Types separated by commas, with the closing angle bracket. -/
def tys : Nat → Reader (List Ty)
  | 0, _ => none
  | fuel + 1, ts =>
    match ty fuel ts with
    | some (t, .sym '>' :: r) => some ([t], r)
    | some (t, .sym ',' :: r) => (tys fuel r).map (fun x => (t :: x.1, x.2))
    | _ => none
end

def anyTy : Reader Ty := fun ts => ty ts.length ts

/-- `Foo::` or `Foo::<A, B>::`, in front of an associated function. -/
def path : Reader Ty := fun ts =>
  match before (code "::") name ts with
  | some (n, .sym '<' :: r) =>
    match tys r.length r with
    | some (as, r) =>
      match eat (code "::") r with
      | some r => some (.app n as, r)
      | none => none
    | none => none
  | some (n, r) => some (.named n, r)
  | none => none

/-! ### Expressions and statements -/

/-- What follows a given beginning of a word. -/
def rest (start word : String) : Option String :=
  if start.toList.isPrefixOf word.toList then some (String.ofList (word.toList.drop start.length)) else none

/-- `bytes_reader.read_m()` or `T::read_from_buffers(bytes_reader)`. -/
def readE : Reader ReadE := fun ts =>
  match eat (code "bytes_reader.") ts with
  | some (.word w :: r) =>
    match rest "read_" w, eat (code "()") r with
    | some m, some r => some (.prim m, r)
    | _, _ => none
  | some _ => none
  | none => (before (code "read_from_buffers(bytes_reader)") path ts).map (fun x => (.path x.1, x.2))

/-- `self.f` or a variable. -/
def place : Reader Acc := fun ts =>
  match eat (code "self.") ts with
  | some r => (name r).map (fun x => (.field x.1, x.2))
  | none => (name ts).map (fun x => (.var x.1, x.2))

/-- `self.f`, `*v` or a number. -/
def value : Reader Acc := fun ts =>
  match ts with
  | .sym '*' :: r => (name r).map (fun x => (.var x.1, x.2))
  | _ =>
    match eat (code "self.") ts with
    | some r => (name r).map (fun x => (.field x.1, x.2))
    | none => (number ts).map (fun x => (.lit x.1, x.2))

/-- `place.write_to_buffers(bytes_writer);` -/
def callS : Reader WriteS := fun ts =>
  (before (code ".write_to_buffers(bytes_writer);") place ts).map (fun x => (.call x.1, x.2))

/-- `bytes_writer.write_m(value);` -/
def primS : Reader WriteS := fun ts =>
  match eat (code "bytes_writer.") ts with
  | some (.word w :: .sym '(' :: r) =>
    match rest "write_" w, before (code ");") value r with
    | some m, some (a, r) => some (.prim m a, r)
    | _, _ => none
  | _ => none

def writeS : Reader WriteS := fun ts =>
  match primS ts with
  | some x => some x
  | none => callS ts

/-- `0`, `0.0`, `false` or `T::default()`. -/
def defE : Reader DefE
  | .word "0" :: ts => some (.zero, ts)
  | .word "0.0" :: ts => some (.zeroF, ts)
  | .word "false" :: ts => some (.no, ts)
  | ts => (before (code "default()") path ts).map (fun x => (.call x.1, x.2))

/-! ### Declarations -/

/-- `pub f: T,` -/
def field : Reader (String × Ty) := fun ts =>
  match eat (code "pub") ts with
  | some r => named anyTy r
  | none => none

/-- `V,`, `V(..),` or `V { .. },` -/
def variant : Reader (String × Payload Ty) := fun ts =>
  match name ts with
  | none => none
  | some (v, r) => (before (code ",") (payload anyTy) r).map (fun x => ((v, x.1), x.2))

/-- `#[derive(..)] pub struct X;`, `#[derive(..)] pub struct X { .. }` with fields, or
`#[derive(..)] pub enum X { .. }`. -/
def decl : Reader Decl := fun ts =>
  match eat (code "#[derive(Debug, Clone, PartialEq)] pub") ts with
  | some (.word "struct" :: r) =>
    match name r with
    | some (n, .sym ';' :: r) => some (.struct n [], r)
    | some (n, .sym '{' :: r) =>
      match upTo '}' field r with
      | some (f :: fs, r) => some (.struct n (f :: fs), r)
      | _ => none
    | _ => none
  | some (.word "enum" :: r) =>
    match before (code "{") name r with
    | some (n, r) => (upTo '}' variant r).map (fun x => (.enum n x.1, x.2))
    | none => none
  | _ => none

/-- `Self`, `Self { .. }` or `Self::V ..` -/
def defBody : Reader DefBody := fun ts =>
  match eat (code "Self") ts with
  | some (.sym '{' :: r) => (upTo '}' (named defE) r).map (fun x => (.selfLit x.1, x.2))
  | some (.sym ':' :: .sym ':' :: r) =>
    match name r with
    | some (v, r) => (payload defE r).map (fun x => (.variant v x.1, x.2))
    | none => none
  | some r => some (.unit, r)
  | none => none

/-- A declaration and the `impl Default` block of the same type. -/
def typeItem : Reader TypeItem := fun ts =>
  match decl ts with
  | none => none
  | some (d, r) =>
    match eat (code "impl Default for" ++ .word d.id :: code "{ fn default() -> Self {") r with
    | none => none
    | some r => (before (code "} }") defBody r).map (fun x => (⟨d, x.1⟩, x.2))

/-! ### `impl IntoVMBuffers` -/

/-- `E::V` -/
def variantPath : Reader (String × String) := fun ts =>
  match before (code "::") name ts with
  | none => none
  | some (e, r) => (name r).map (fun x => ((e, x.1), x.2))

/-- `p => return E::V ..,` -/
def readArm : Reader (String × Nat × String × Payload ReadE) := fun ts =>
  match before (code "=> return") number ts with
  | none => none
  | some (p, r) =>
    match variantPath r with
    | none => none
    | some ((e, v), r) => (before (code ",") (payload readE) r).map (fun x => ((e, p, v, x.1), x.2))

/-- The enum that all arms name, and the arms without it. -/
def sameEnum {α : Type} : List (String × α) → Option (String × List α)
  | [] => none
  | (e, a) :: rest => if rest.all (fun x => x.1 = e) then some (e, a :: rest.map (·.2)) else none

/-- `let value = tag; match value {` -/
def matchTag : Reader ReadE := fun ts =>
  match eat (code "let value =") ts with
  | none => none
  | some r => before (code "; match value {") readE r

/-- The last arm, after its underscore, and the end of the `match`. -/
def otherwise : List Tok := code "=> panic!(\"Unsupported enum value: {}\", value), }"

def readBody : Reader ReadBody := fun ts =>
  match eat (code "fn read_from_buffers(_: &mut BytesReader) -> Self {") ts with
  | some r => (before (code "}") name r).map (fun x => (.unit x.1, x.2))
  | none =>
    match eat (code "fn read_from_buffers(bytes_reader: &mut BytesReader) -> Self {") ts with
    | none => none
    | some r =>
      match eat (code "Self {") r with
      | some r => (before (code "}") (upTo '}' (named readE)) r).map (fun x => (.selfLit x.1, x.2))
      | none =>
        match matchTag r with
        | none => none
        | some (tag, r) =>
          match before (otherwise ++ code "}") (fun ts => many readArm (.word "_") ts.length ts) r with
          | none => none
          | some (arms, r) => (sameEnum arms).map (fun x => (.matchTag tag x.1 x.2, r))

/-- `v,` -/
def patternVar : Reader String := before (code ",") name

/-- The variables of a pattern, in parentheses or braces. -/
def pattern : Reader (Payload Unit × List String)
  | .sym '(' :: ts => (upTo ')' patternVar ts).map (fun x => ((.tuple [], x.1), x.2))
  | .sym '{' :: ts => (upTo '}' patternVar ts).map (fun x => ((.named [], x.1), x.2))
  | ts => some ((.unit, []), ts)

/-- `E::V pattern => { statements },` -/
def writeArm : Reader (String × String × Payload Unit × List String × List WriteS) := fun ts =>
  match variantPath ts with
  | none => none
  | some ((e, v), r) =>
    match before (code "=> {") pattern r with
    | none => none
    | some ((p, xs), r) =>
      (before (code ",") (upTo '}' writeS) r).map (fun x => ((e, v, p, xs, x.1), x.2))

def writeBody : Reader WriteBody := fun ts =>
  match eat (code "fn write_to_buffers(&self, _: &mut BytesWriter) {}") ts with
  | some r => some (.nop, r)
  | none =>
    match eat (code "fn write_to_buffers(&self, bytes_writer: &mut BytesWriter) {") ts with
    | none => none
    | some r =>
      match eat (code "match self {") r with
      | some r =>
        match before (code "}") (upTo '}' writeArm) r with
        | none => none
        | some (arms, r) => (sameEnum arms).map (fun x => (.matchSelf x.1 x.2, r))
      | none => (upTo '}' writeS r).map (fun x => (.stmts x.1, x.2))

/-- `e;` -/
def readStmt : Reader ReadE := before (code ";") readE

/-- `p => (),` or `p => { e; .. },` -/
def skipArm : Reader (Nat × Option (List ReadE)) := fun ts =>
  match before (code "=>") number ts with
  | none => none
  | some (p, r) =>
    match eat (code "(),") r with
    | some r => some ((p, none), r)
    | none =>
      match eat (code "{") r with
      | none => none
      | some r => (before (code ",") (upTo '}' readStmt) r).map (fun x => ((p, some x.1), x.2))

def skipBody : Reader SkipBody := fun ts =>
  match eat (code "fn skip_in_buffers(_: &mut BytesReader, _: u64) {}") ts with
  | some r => some (.nop, r)
  | none =>
    match eat (code "fn skip_in_buffers(bytes_reader: &mut BytesReader, count: u64) { for _ in 0..count {") ts with
    | none => none
    | some r =>
      match matchTag r with
      | some (tag, r) =>
        (before (otherwise ++ code "} }") (fun ts => many skipArm (.word "_") ts.length ts) r).map
          (fun x => (.loopMatch tag x.1, x.2))
      | none => (before (code "}") (upTo '}' readStmt) r).map (fun x => (.loop x.1, x.2))

def impl : Reader Impl := fun ts =>
  match eat (code "impl IntoVMBuffers for") ts with
  | none => none
  | some r =>
    match before (code "{") name r with
    | none => none
    | some (n, r) =>
      match readBody r with
      | none => none
      | some (read, r) =>
        match writeBody r with
        | none => none
        | some (write, r) => (before (code "}") skipBody r).map (fun x => (⟨n, read, write, x.1⟩, x.2))

/-! ### Sections -/

/-- The section with the type declarations. -/
def readItems (text : String) : Option (List TypeItem) :=
  (pieces text).bind (fun ts => toEnd typeItem ts.length ts)

/-- The section with the `impl IntoVMBuffers` blocks. -/
def readImpls (text : String) : Option (List Impl) :=
  (pieces text).bind (fun ts => toEnd impl ts.length ts)

/-- The program that the two sections denote. -/
def readProgram (models buffers : String) : Option Prog :=
  match readItems models, readImpls buffers with
  | some items, some impls => some ⟨items.map (·.decl), impls⟩
  | _, _ => none

end TPB.Spec.RustReader

namespace TPB.Spec

/-- Every name in a type declaration can be a name in Rust: an identifier, and not a keyword. -/
def RustNamed (S : List ASTNode) : Prop := ∀ d ∈ S, ∀ w ∈ declWords d, RustName w

end TPB.Spec

namespace TPB.Rust
open Spec.RustReader

/-- `P` is the program of the Rust text generated for the types of `S`: the text is printed from `P`, and if the names
of the schema can be names in Rust, `P` is what the reader above finds in the characters of the text. -/
def Emits (S : List ASTNode) (P : Prog) : Prop :=
  Prints S P ∧ (Spec.RustNamed S → ∀ m, RustGen.models S = .ok m → readProgram m (RustGen.buffers S) = some P)

end TPB.Rust
