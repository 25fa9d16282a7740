/-
Specification of the generated Dart client: the names it declares, the values it exchanges with the server,
and what the two runtime libraries agree on.
-/
import Verif.Spec.Rpc
import Verif.Spec.Interop
namespace TPB.Spec

/-- Private members of the client class that belong to a method: a counter for method ids, a map of
completers, a read task, a stream controller. -/
def clientFields (x : Ext) (f : FnNode) : List String :=
  if f.isRead then ["_read" ++ x.pascal f.id ++ "Task", "_read" ++ x.pascal f.id ++ "StreamController"]
  else if f.isAsync then
    ["_last" ++ x.pascal f.id ++ "MethodId", "_" ++ x.camel f.id ++ "Completers", "_read" ++ x.pascal f.id ++ "Task"]
  else []

/-- Methods of the client class that belong to a method of the schema. -/
def clientMethods (x : Ext) (f : FnNode) : List String :=
  if f.isRead then ["_connect" ++ x.pascal f.id]
  else if f.isAsync then ["_connect" ++ x.pascal f.id, x.camel f.id]
  else [x.camel f.id]

/-- Streams of the client class. -/
def clientStreams (x : Ext) (f : FnNode) : List String := if f.isRead then [x.camel f.id] else []

/-- The names of the generated client class can be told apart, and so can those of the parameters of its
methods and the local variables next to them. -/
structure DartRpcNamed (x : Ext) (S : List ASTNode) : Prop where
  members : (["_scheduler", "_scopeId", "disconnect"] ++ (methodsOf S).flatMap (clientFields x)
    ++ (methodsOf S).flatMap (clientStreams x) ++ (methodsOf S).flatMap (clientMethods x)).Nodup
  rotate : "rotateMethodId" ∉ (methodsOf S).flatMap (clientFields x) ++ (methodsOf S).flatMap (clientStreams x)
    ++ (methodsOf S).flatMap (clientMethods x)
  params : ∀ f ∈ methodsOf S, (f.args.map (fun a => x.camel a.id)).Nodup
  locals : ∀ f ∈ methodsOf S, ∀ a ∈ f.args, (x.camel a.id).toList.head? ≠ some '_' ∧
    x.camel a.id ∉ "writer" :: if f.isAsync then ["methodId", "completer"] else ["result"]

/-- The two libraries agree on the status that marks a message: 255 on the Rust side, `hasData` on the Dart
side; one side reads it exactly when the other one does. -/
structure SameStatus (W D : Wire) (readW readD : Bytes → Option (Val × Bytes)) (hasData : Int) : Prop where
  write : W.prim "u8" (.int 255) = D.prim "Int8" (.int hasData)
  read : ∀ bs, (∃ r, readW bs = some (.int 255, r)) ↔ ∃ r, readD bs = some (.int hasData, r)

/-- The Rust values `vs` of types `ts` are seen by Dart as the values that the Dart objects `ds` represent. -/
def Exchanged (x : Ext) (W : Wire) (S : List ASTNode) (ts : List TypeId) (vs ds : List Val) : Prop :=
  HasTys W S ts vs ∧ ∃ us, Sees S ts vs us ∧ DRep x (dartSchema S) (ts.map dartView) us ds

/-- The same for the result of a method, if it has one. -/
def ExchangedResult (x : Ext) (W : Wire) (S : List ASTNode) (f : FnNode) : Option Val → Option Val → Prop
  | none, none => f.returnTypeId = none
  | some v, some d => ∃ t, f.returnTypeId = some t ∧ Exchanged x W S [t] [v] [d]
  | _, _ => False

/-- `ds` are Dart objects that represent values of the argument types of `f`. -/
def DartArgs (x : Ext) (D : Wire) (S : List ASTNode) (f : FnNode) (ds : List Val) : Prop :=
  ∃ us, HasTys D (dartSchema S) ((f.args.map (·.typeId)).map dartView) us ∧
    DRep x (dartSchema S) ((f.args.map (·.typeId)).map dartView) us ds

/-- The types of a method's arguments and result have the same layout on both sides and are not hidden by
classes of the generated file. -/
structure PortableMethod (S : List ASTNode) (f : FnNode) : Prop where
  args : ∀ a ∈ f.args, Portable S a.typeId ∧ LibraryFree S a.typeId
  result : ∀ t, f.returnTypeId = some t → Portable S t ∧ LibraryFree S t

/-- The method ids that the calls of a method carry, in order: the client starts with 0 and lets
`rotateMethodId` of the library determine the next one. -/
def idAt (rotate : Int → Int) : Nat → Int
  | 0 => 0
  | n + 1 => rotate (idAt rotate n)

/-- The first `n` method ids are 64-bit integers and no two of them are equal. -/
structure FreshIds (rotate : Int → Int) (n : Nat) : Prop where
  range : ∀ j < n, -(2 ^ 63) ≤ idAt rotate j ∧ idAt rotate j < 2 ^ 63
  inj : ∀ i j, i < n → j < n → idAt rotate i = idAt rotate j → i = j

/-- `ds` stands for `ys`, in the same order, except that elements of `ys` may be missing and may be repeated. -/
inductive Stutter {α β : Type} (R : α → β → Prop) : List α → List β → Prop
  | done (ys) : Stutter R ys []
  | drop {y ys ds} : Stutter R ys ds → Stutter R (y :: ys) ds
  | take {y ys d ds} : R y d → Stutter R (y :: ys) ds → Stutter R (y :: ys) (d :: ds)

end TPB.Spec
