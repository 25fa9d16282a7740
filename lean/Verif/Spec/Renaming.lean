/-
Specification: schemas and values that differ in names only.
-/
import Verif.Spec.Dart
import Verif.Spec.Evolution
import Verif.Spec.WellFormed
namespace TPB.Spec

/-- `t` in the schema `S` and `t'` in the schema `S'` are the same type up to the names of declared types, where
`M id id'` says that the type `id` of `S` is called `id'` in `S'`. -/
inductive SameTy (M : String → String → Prop) (S S' : List ASTNode) : TypeId → TypeId → Prop
  | builtin (t : TypeId) : (builtin? t).isSome → SameTy M S S' t t
  | declared (id id' : String) : id ∈ typeNames S → M id id' → SameTy M S S' (.other id) (.other id')
  | library (id : String) : id ∉ typeNames S → id ∉ typeNames S' → SameTy M S S' (.other id) (.other id)
  | container (c : String) (gs gs' : List TypeId) : gs.length = gs'.length →
      (∀ i (h : i < gs.length) (h' : i < gs'.length), SameTy M S S' gs[i] gs'[i]) →
      SameTy M S S' (.generic c gs) (.generic c gs')

/-- The same for lists of types, one by one. -/
def SameTys (M : String → String → Prop) (S S' : List ASTNode) (ts ts' : List TypeId) : Prop :=
  ts.length = ts'.length ∧ ∀ i (h : i < ts.length) (h' : i < ts'.length), SameTy M S S' ts[i] ts'[i]

/-- Each declared type of `S` with a name in `S'` has the same shape there: a struct has fields of the same types
in the same order, and an enum has, for every variant, one with the same number and a payload of the same types in
the same order.  The names of types, fields and variants may be others, a variant `A(T)` may become `A { x: T }`,
and `S'` may have more declarations and more variants. -/
structure SameShape (M : String → String → Prop) (S S' : List ASTNode) : Prop where
  struct : ∀ n, .struct n ∈ S → ∀ id', M n.id id' → ∃ n', .struct n' ∈ S' ∧ n'.id = id' ∧
    SameTys M S S' ((fieldsOf n).map (·.2)) ((fieldsOf n').map (·.2))
  enum : ∀ n, .enum n ∈ S → ∀ id', M n.id id' → ∃ n', .enum n' ∈ S' ∧ n'.id = id' ∧
    ∀ i ∈ n.items, ∃ i' ∈ n'.items, i'.position = i.position ∧ SameTys M S S' ((payload i).map (·.2)) ((payload i').map (·.2))

/-- `SameVals W M S S' ts ts' vs vs'`: the values `vs` of the types `ts` in `S` and the values `vs'` of the types
`ts'` in `S'` are the same up to names: the same built-in and library values in the same places, where fields are
paired by their place and variants by their number. -/
inductive SameVals (W : Wire) (M : String → String → Prop) (S S' : List ASTNode) :
    List TypeId → List TypeId → List Val → List Val → Prop
  | nil : SameVals W M S S' [] [] [] []
  | builtin (t : TypeId) (v : Val) {ts ts' vs vs'} : LeafVal t v → SameVals W M S S' ts ts' vs vs' →
      SameVals W M S S' (t :: ts) (t :: ts') (v :: vs) (v :: vs')
  | struct (n n' : StructNode) (fvs fvs' : List Val) {ts ts' vs vs'} : .struct n ∈ S → .struct n' ∈ S' → M n.id n'.id →
      SameVals W M S S' ((fieldsOf n).map (·.2)) ((fieldsOf n').map (·.2)) fvs fvs' → SameVals W M S S' ts ts' vs vs' →
      SameVals W M S S' (.other n.id :: ts) (.other n'.id :: ts')
        (.struct n.id (named (fieldsOf n) fvs) :: vs) (.struct n'.id (named (fieldsOf n') fvs') :: vs')
  | enum (n n' : EnumNode) (i i' : EnumItem) (pvs pvs' : List Val) {ts ts' vs vs'} : .enum n ∈ S → .enum n' ∈ S' →
      M n.id n'.id → i ∈ n.items → i' ∈ n'.items → i'.position = i.position →
      SameVals W M S S' ((payload i).map (·.2)) ((payload i').map (·.2)) pvs pvs' → SameVals W M S S' ts ts' vs vs' →
      SameVals W M S S' (.other n.id :: ts) (.other n'.id :: ts')
        (.enum n.id i.id (named (payload i) pvs) :: vs) (.enum n'.id i'.id (named (payload i') pvs') :: vs')
  | list (c : String) (gs gs' : List TypeId) (shape : Nat) (its its' : List TypeId) (items items' : List Val) {ts ts' vs vs'} :
      (W.head c shape).isSome → pick gs (W.sub c shape) = some its → pick gs' (W.sub c shape) = some its' →
      SameVals W M S S' its its' items items' → SameVals W M S S' ts ts' vs vs' →
      SameVals W M S S' (.generic c gs :: ts) (.generic c gs' :: ts') (.list shape items :: vs) (.list shape items' :: vs')
  | library (id : String) (v : Val) {ts ts' vs vs'} : id ∉ typeNames S → id ∉ typeNames S' → (W.ext id v).isSome →
      SameVals W M S S' ts ts' vs vs' → SameVals W M S S' (.other id :: ts) (.other id :: ts') (v :: vs) (v :: vs')

/-- `v` of type `t` in `S` and `v'` of type `t'` in `S'` are the same up to names. -/
abbrev SameVal (W : Wire) (M : String → String → Prop) (S S' : List ASTNode) (t t' : TypeId) (v v' : Val) : Prop :=
  SameVals W M S S' [t] [t'] [v] [v']

/-- The Dart code tells the type apart in the same way in both schemas: built-in types; declared types and types of the
library; lists of these; lists of built-in types and of lists, unless a declared type has the name of their codec
(`Int`, `Double`, `Bool`); and library types with arguments, unless an argument mentions a declared type: the library
has separate codecs for `Box<Point>` and `Box<Pt>`, about which nothing is known. -/
inductive Renamable (S S' : List ASTNode) : TypeId → Prop
  | builtin (t : TypeId) : (builtin? t).isSome → Renamable S S' t
  | name (id : String) : Renamable S S' (.other id)
  | list (id : String) : Renamable S S' (.generic "Vec" [.other id])
  | lists (g : TypeId) : dartElem g ∉ typeNames S → dartElem g ∉ typeNames S' → Renamable S S' (.generic "Vec" [g])
  | library (c : String) (gs : List TypeId) : c ≠ "Vec" ∨ gs.length ≠ 1 →
      (∀ id ∈ typeNames S, ¬ Mentions id (.generic c gs)) → Renamable S S' (.generic c gs)

/-- The types of all fields and payloads are of this kind. -/
structure RenamableSchema (S S' : List ASTNode) : Prop where
  fields : ∀ n, .struct n ∈ S → ∀ f ∈ fieldsOf n, Renamable S S' f.2
  payloads : ∀ n, .enum n ∈ S → ∀ i ∈ n.items, ∀ f ∈ payload i, Renamable S S' f.2

/-- `f` of `S` and `f'` of `S'` are the same method up to names: of the same kind, with arguments of the same types in
the same order, and with a result of the same type.  The names of the method and of its arguments may be others. -/
structure SameMethod (M : String → String → Prop) (S S' : List ASTNode) (f f' : FnNode) : Prop where
  isRead : f'.isRead = f.isRead
  isAsync : f'.isAsync = f.isAsync
  args : SameTys M S S' (f.args.map (·.typeId)) (f'.args.map (·.typeId))
  result : (f.returnTypeId = none ∧ f'.returnTypeId = none) ∨
    ∃ t t', f.returnTypeId = some t ∧ f'.returnTypeId = some t' ∧ SameTy M S S' t t'

/-- The interface `S'` is `S` with other names, and possibly more methods at the end. -/
structure SameInterface (M : String → String → Prop) (S S' : List ASTNode) : Prop where
  types : SameShape M S S'
  directives : directivesOf S' = directivesOf S
  methods : ∀ (i : Nat) (f : FnNode), (methodsOf S)[i]? = some f → ∃ f', (methodsOf S')[i]? = some f' ∧ SameMethod M S S' f f'

/-- The results `v` of `f` and `v'` of `f'` are the same up to names. -/
def SameResult (W : Wire) (M : String → String → Prop) (S S' : List ASTNode) (f f' : FnNode) : Option Val → Option Val → Prop
  | none, none => f.returnTypeId = none ∧ f'.returnTypeId = none
  | some v, some v' => ∃ t t', f.returnTypeId = some t ∧ f'.returnTypeId = some t' ∧ SameVal W M S S' t t' v v'
  | _, _ => False

end TPB.Spec
