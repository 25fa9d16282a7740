/- Specification of methods: names, groups, and the exchange of requests and answers. -/
import Verif.Spec.Wire
namespace TPB.Spec

/-- The name of the struct that holds the arguments of a method. -/
def argsName (f : FnNode) : String := "__" ++ f.id ++ "_rpc_args__"

/-- The argument names and types of a method. -/
def argsOf (f : FnNode) : List (String × TypeId) := f.args.map (fun a => (a.id, a.typeId))

/-- The names of methods can be told apart from each other and from the other names that emitted Rust
code uses: method names are distinct, the arguments of a method have distinct names, no type has the name
of an argument struct, and no method or argument has the name of a variable of the emitted code. -/
structure RpcNamed (S : List ASTNode) : Prop where
  methods : ((methodsOf S).map (·.id)).Nodup
  args : ∀ f ∈ methodsOf S, ((argsOf f).map (·.1)).Nodup ∧ "__method_id__" ∉ (argsOf f).map (·.1)
  structs : ∀ f ∈ methodsOf S, argsName f ∉ typeNames S
  locals : ∀ f ∈ methodsOf S, f.id ∉ ["scope_id", "runtime_as_mut", "memory", "async_context",
    "rpc_method_address", "args", "is_busy"]

/-- The runtime library has no type with the name of an argument struct. -/
def NoExtArgs (W : Wire) (S : List ASTNode) : Prop := ∀ f ∈ methodsOf S, ∀ v, W.ext (argsName f) v = none

/-! ### Requests and answers

A request is the status byte 255, for an asynchronous method the method id, and the arguments in
declaration order.  An answer is the status byte 255, for an asynchronous method the method id of its
request, and the result if the method has one. -/

/-- The bytes of an optional method id. -/
def IdBytes (W : Wire) : Option Int → Bytes → Prop
  | none, b => b = []
  | some i, b => W.prim "i64" (.int i) = some b

/-- `bs` is a request of the method `f` with the given method id and arguments. -/
structure Request (W : Wire) (S : List ASTNode) (f : FnNode) (mid : Option Int) (vs : List Val) (bs : Bytes) : Prop where
  id : mid.isSome = f.isAsync
  bytes : ∃ s m b, W.prim "u8" (.int 255) = some s ∧ IdBytes W mid m ∧ Enc W S ((argsOf f).map (·.2)) vs b ∧ bs = s ++ m ++ b

/-- The bytes of the result of a method. -/
def ResultIs (W : Wire) (S : List ASTNode) (f : FnNode) : Option Val → Bytes → Prop
  | none, b => f.returnTypeId = none ∧ b = []
  | some v, b => ∃ t, f.returnTypeId = some t ∧ Enc W S [t] [v] b

/-- `bs` is an answer of the method `f` with the given method id and result. -/
def Answer (W : Wire) (S : List ASTNode) (f : FnNode) (mid : Option Int) (v : Option Val) (bs : Bytes) : Prop :=
  ∃ s m b, W.prim "u8" (.int 255) = some s ∧ IdBytes W mid m ∧ ResultIs W S f v b ∧ bs = s ++ m ++ b

/-- A buffer whose status byte is not 255 holds neither request nor answer. -/
def NoMessage (readU8 : Bytes → Option (Val × Bytes)) (bs : Bytes) : Prop :=
  ∃ n r, readU8 bs = some (.int n, r) ∧ n ≠ 255

open Classical in
/-- Number of elements with a property. -/
noncomputable def num {α : Type} (p : α → Prop) (l : List α) : Nat := l.countP (fun x => decide (p x))

end TPB.Spec
