/- No generator looks at the number of a field. -/
import Verif.Spec.FieldNumbers
import Verif.Model.RustGen
import Verif.Model.DartGen
import Verif.Model.KotlinGen
import Verif.Model.SwiftGen
namespace TPB.FieldNumbers
open Spec

theorem field_name (f : StructField) : (unnumberedField f).name = f.name := rfl
theorem field_type (f : StructField) : (unnumberedField f).typeId = f.typeId := rfl
theorem value_type (v : TupleField) : (unnumberedValue v).typeId = v.typeId := rfl
theorem item_id (i : EnumItem) : (unnumberedItem i).id = i.id := by cases i <;> rfl
theorem item_position (i : EnumItem) : (unnumberedItem i).position = i.position := by cases i <;> rfl

/-- A struct without the numbers of its fields. -/
def noNums (n : StructNode) : StructNode := ⟨n.id, n.fields.map unnumberedField, n.emplaceBuffers, n.intoBuffers⟩
/-- An enum without the numbers of the fields of its variants. -/
def noNumsE (n : EnumNode) : EnumNode := ⟨n.id, n.items.map unnumberedItem⟩

theorem isEmpty_map {α β : Type} (f : α → β) (l : List α) : (l.map f).isEmpty = l.isEmpty := by cases l <;> rfl

theorem foldIdx_map {α β γ : Type} (g : γ → Nat → β → γ) (h : γ → Nat → α → γ) (f : α → β)
    (e : ∀ w i a, g w i (f a) = h w i a) : ∀ (i : Nat) (l : List α) (w : γ), foldIdx g i (l.map f) w = foldIdx h i l w
  | _, [], _ => rfl
  | i, a :: l, w => by
    show foldIdx g (i + 1) (l.map f) (g w i (f a)) = foldIdx h (i + 1) l (h w i a)
    rw [e, foldIdx_map g h f e]

theorem foldl_map_eq {α β γ : Type} (g : γ → β → γ) (h : γ → α → γ) (f : α → β) (e : ∀ w a, g w (f a) = h w a) :
    ∀ (l : List α) (w : γ), (l.map f).foldl g w = l.foldl h w
  | [], _ => rfl
  | a :: l, w => by
    show (l.map f).foldl g (g w (f a)) = l.foldl h (h w a)
    rw [e, foldl_map_eq g h f e]

theorem loopM_map {α β : Type} (g : Writer → β → Except Panic Writer) (h : Writer → α → Except Panic Writer) (f : α → β)
    (e : ∀ w a, g w (f a) = h w a) : ∀ (l : List α) (w : Writer), DartGen.loopM g (l.map f) w = DartGen.loopM h l w
  | [], _ => rfl
  | a :: l, w => by
    simp only [List.map_cons, DartGen.loopM, e]
    cases h w a with
    | error e => rfl
    | ok w => exact loopM_map g h f e l w

/-! ### Rust -/
section Rust
open RustGen

theorem rust_structParameters (t : Nat) (p : Bool) (fs : List StructField) :
    structParameters t p (fs.map unnumberedField) = structParameters t p fs := by
  unfold structParameters
  rw [List.foldl_map]
  rfl

theorem rust_structDefault (n : StructNode) : structDefault (noNums n) = structDefault n := by
  unfold structDefault noNums
  dsimp only
  rw [List.foldl_map]
  rfl

theorem rust_structModel (n : StructNode) (g : Bool) : structModel (noNums n) g = structModel n g := by
  have e := rust_structDefault n
  unfold structModel
  rw [e]
  unfold noNums
  dsimp only
  rw [rust_structParameters, isEmpty_map]

theorem rust_tupleParameters (t : Nat) (vs : List TupleField) :
    tupleParameters t (vs.map unnumberedValue) = tupleParameters t vs := by
  unfold tupleParameters
  rw [List.foldl_map]
  rfl

theorem rust_enumModelItem (w : Writer) (i : EnumItem) : enumModelItem w (unnumberedItem i) = enumModelItem w i := by
  cases i with
  | empty p id => rfl
  | tuple p id vs => simp only [unnumberedItem, enumModelItem, rust_tupleParameters]
  | struct p id fs => simp only [unnumberedItem, enumModelItem, rust_structParameters]

theorem rust_enumDefaultItem (w : Writer) (i : EnumItem) : enumDefaultItem w (unnumberedItem i) = enumDefaultItem w i := by
  cases i with
  | empty p id => rfl
  | tuple p id vs => simp only [unnumberedItem, enumDefaultItem, List.foldl_map, value_type]
  | struct p id fs => simp only [unnumberedItem, enumDefaultItem, List.foldl_map, field_type, field_name]

theorem rust_enumModel (n : EnumNode) : enumModel (noNumsE n) = enumModel n := by
  obtain ⟨id, items⟩ := n
  unfold enumModel noNumsE
  dsimp only
  rw [foldl_map_eq _ _ _ rust_enumModelItem]
  cases items with
  | nil => rfl
  | cons i is =>
    simp only [List.map_cons, List.head?_cons, rust_enumDefaultItem]

theorem rust_structBuffers (n : StructNode) : structBuffers (noNums n) = structBuffers n := by
  have e1 : structRead (noNums n) = structRead n := by
    unfold structRead noNums
    dsimp only
    rw [List.foldl_map, isEmpty_map]
    rfl
  have e2 : structWrite (noNums n) = structWrite n := by
    unfold structWrite noNums
    dsimp only
    rw [List.foldl_map, isEmpty_map]
    rfl
  have e3 : structSkip (noNums n) = structSkip n := by
    unfold structSkip noNums
    dsimp only
    rw [List.foldl_map, isEmpty_map]
    rfl
  unfold structBuffers
  rw [e1, e2, e3]
  rfl

theorem rust_enumReadItem (e : String) (w : Writer) (i : EnumItem) : enumReadItem e w (unnumberedItem i) = enumReadItem e w i := by
  cases i with
  | empty p id => rfl
  | tuple p id vs => simp only [unnumberedItem, enumReadItem, List.foldl_map, value_type]
  | struct p id fs => simp only [unnumberedItem, enumReadItem, List.foldl_map, field_type, field_name]

theorem rust_enumWriteItem (e : String) (w : Writer) (i : EnumItem) : enumWriteItem e w (unnumberedItem i) = enumWriteItem e w i := by
  cases i with
  | empty p id => rfl
  | tuple p id vs =>
    simp only [unnumberedItem, enumWriteItem]
    rw [foldIdx_map (fun (w : Writer) i (_ : TupleField) => w.writelnTab 4 ("v" ++ toString i ++ ",")) _ unnumberedValue (fun _ _ _ => rfl),
      foldIdx_map (fun (w : Writer) i (v : TupleField) => w.writelnTab 4 (write v.typeId ("v" ++ toString i) true)) _ unnumberedValue
        (fun _ _ _ => rfl)]
    rfl
  | struct p id fs => simp only [unnumberedItem, enumWriteItem, List.foldl_map, field_type, field_name]

theorem rust_enumSkipItem (w : Writer) (i : EnumItem) : enumSkipItem w (unnumberedItem i) = enumSkipItem w i := by
  cases i with
  | empty p id => rfl
  | tuple p id vs => simp only [unnumberedItem, enumSkipItem, List.foldl_map, value_type]
  | struct p id fs => simp only [unnumberedItem, enumSkipItem, List.foldl_map, field_type]

theorem rust_enumBuffers (n : EnumNode) : enumBuffers (noNumsE n) = enumBuffers n := by
  have e1 : enumRead (noNumsE n) = enumRead n := by
    unfold enumRead noNumsE
    dsimp only
    rw [foldl_map_eq _ _ _ (rust_enumReadItem n.id)]
  have e2 : enumWrite (noNumsE n) = enumWrite n := by
    unfold enumWrite noNumsE
    dsimp only
    rw [foldl_map_eq _ _ _ (rust_enumWriteItem n.id)]
  have e3 : enumSkip (noNumsE n) = enumSkip n := by
    unfold enumSkip noNumsE
    dsimp only
    rw [foldl_map_eq _ _ _ rust_enumSkipItem]
  unfold enumBuffers
  rw [e1, e2, e3]
  rfl

theorem rust_modelsLoop (S : List ASTNode) : ∀ w, modelsLoop w (S.map unnumbered) = modelsLoop w S := by
  induction S with
  | nil => intro w; rfl
  | cons d S ih =>
    intro w
    cases d with
    | struct n =>
      show modelsLoop w (.struct (noNums n) :: _) = _
      simp only [modelsLoop, rust_structModel, ih]
    | enum n =>
      show modelsLoop w (.enum (noNumsE n) :: _) = _
      simp only [modelsLoop, rust_enumModel, ih]
    | _ => simpa [unnumbered, modelsLoop] using ih w

theorem rust_models (S : List ASTNode) : models (S.map unnumbered) = models S := by
  unfold models
  rw [rust_modelsLoop]

theorem rust_buffers (S : List ASTNode) : buffers (S.map unnumbered) = buffers S := by
  unfold buffers
  rw [foldl_map_eq (h := buffersItem)]
  intro w d
  cases d with
  | struct n =>
    show buffersItem w (.struct (noNums n)) = _
    simp only [buffersItem, rust_structBuffers]
  | enum n =>
    show buffersItem w (.enum (noNumsE n)) = _
    simp only [buffersItem, rust_enumBuffers]
  | _ => rfl

end Rust

theorem hasFns (S : List ASTNode) : findFnNodes (S.map unnumbered) = findFnNodes S := by
  induction S with
  | nil => rfl
  | cons d S ih => cases d <;> simp [unnumbered, findFnNodes, ih]

theorem hasConst (S : List ASTNode) : containsConstsNodes (S.map unnumbered) = containsConstsNodes S := by
  induction S with
  | nil => rfl
  | cons d S ih => cases d <;> simp [unnumbered, containsConstsNodes, ih]

theorem values (S : List ASTNode) (a b : String) :
    findDirectiveGroupValues (S.map unnumbered) a b = findDirectiveGroupValues S a b := by
  induction S with
  | nil => rfl
  | cons d S ih =>
    cases d with
    | directive d => cases d <;> simp [unnumbered, findDirectiveGroupValues, ih]
    | _ => simpa [unnumbered, findDirectiveGroupValues] using ih

theorem value (S : List ASTNode) (a : String) : findDirectiveValue (S.map unnumbered) a = findDirectiveValue S a := by
  induction S with
  | nil => rfl
  | cons d S ih =>
    cases d with
    | directive d => cases d <;> simp [unnumbered, findDirectiveValue, ih]
    | _ => simpa [unnumbered, findDirectiveValue] using ih

section Rust
open RustGen

theorem rust_rpc (S : List ASTNode) : rpc (S.map unnumbered) = rpc S := by
  have e1 : hasRpcMethods (S.map unnumbered) = hasRpcMethods S := by
    induction S with
    | nil => rfl
    | cons d S ih => cases d <;> simp [unnumbered, hasRpcMethods, ih]
  have e2 : registerFn (S.map unnumbered) = registerFn S := by
    unfold registerFn
    rw [value, hasFns]
  unfold rpc
  rw [e1, e2]
  have e3 : ∀ w, (S.map unnumbered).foldl rpcItem w = S.foldl rpcItem w :=
    foldl_map_eq _ _ _ (fun w d => by cases d <;> rfl) S
  simp only [e3]

theorem rust_consts (x : Ext) (S : List ASTNode) : consts x (S.map unnumbered) = consts x S := by
  unfold consts
  rw [foldl_map_eq _ (constsItem x) _ (fun w d => by cases d <;> rfl) S]

theorem rust_generate (x : Ext) (S : List ASTNode) (m b r : Bool) :
    generate x (S.map unnumbered) m b r = generate x S m b r := by
  unfold generate
  rw [hasFns, values, hasConst, rust_consts, rust_models, rust_buffers, rust_rpc]

end Rust

/-! ### Dart -/
section Dart
open DartGen
variable (x : Ext)

theorem dart_structModel (n : StructNode) (d : String) (g : Bool) : structModel x (noNums n) d g = structModel x n d g := by
  unfold structModel noNums
  dsimp only
  rw [isEmpty_map, List.foldl_map, List.foldl_map, List.length_map,
    foldIdx_map _ (structDefaultInit x n.fields.length) unnumberedField (fun _ _ _ => rfl)]
  rfl

theorem dart_tupleStructFields (vs : List TupleField) : ∀ i, tupleStructFields i (vs.map unnumberedValue) = tupleStructFields i vs := by
  induction vs with
  | nil => intro i; rfl
  | cons v vs ih => intro i; simp only [List.map_cons, tupleStructFields, ih, value_type]

/-- The class of a variant: the numbers of its fields are at most those of the variant. -/
theorem dart_itemStruct (n : EnumNode) (i : EnumItem) : enumItemStruct (noNumsE n) (unnumberedItem i) = enumItemStruct n i ∨
    enumItemStruct (noNumsE n) (unnumberedItem i) = noNums (enumItemStruct n i) := by
  cases i with
  | empty p id => exact .inl rfl
  | tuple p id vs => exact .inl (by simp only [unnumberedItem, enumItemStruct, dart_tupleStructFields]; rfl)
  | struct p id fs => exact .inr rfl

theorem dart_enumToMethod (n : EnumNode) (w : Writer) (k : Nat) (i : EnumItem) :
    enumToMethod x (noNumsE n) w k (unnumberedItem i) = enumToMethod x n w k i := by
  have e : (noNumsE n).items.length = n.items.length := List.length_map _
  cases i with
  | empty p id => simp only [unnumberedItem, enumToMethod, e]; rfl
  | tuple p id vs =>
    simp only [unnumberedItem, enumToMethod, e]
    rw [foldIdx_map (fun (w : Writer) i (v : TupleField) => w.writelnTab 2 (typeId v.typeId ++ " v" ++ toString i ++ ",")) _
        unnumberedValue (fun _ _ _ => rfl),
      foldIdx_map (fun (w : Writer) i (_ : TupleField) => w.writelnTab 2 (x.camel id ++ ".v" ++ toString i ++ " = v" ++ toString i ++ ";")) _
        unnumberedValue (fun _ _ _ => rfl)]
    rfl
  | struct p id fs =>
    simp only [unnumberedItem, enumToMethod, e, List.foldl_map, field_type, field_name]
    rfl

theorem dart_enumCreateMethod (n : EnumNode) (w : Writer) (k : Nat) (i : EnumItem) :
    enumCreateMethod x (noNumsE n) w k (unnumberedItem i) = enumCreateMethod x n w k i := by
  have e : (noNumsE n).items.length = n.items.length := List.length_map _
  cases i with
  | empty p id => simp only [unnumberedItem, enumCreateMethod, e]; rfl
  | tuple p id vs =>
    simp only [unnumberedItem, enumCreateMethod, e]
    rw [foldIdx_map (fun (w : Writer) i (v : TupleField) => w.writelnTab 2 (typeId v.typeId ++ " v" ++ toString i ++ ",")) _
        unnumberedValue (fun _ _ _ => rfl),
      foldIdx_map (fun (w : Writer) i (_ : TupleField) =>
        w.writelnTab 2 ("model." ++ x.camel id ++ ".v" ++ toString i ++ " = v" ++ toString i ++ ";")) _
        unnumberedValue (fun _ _ _ => rfl)]
    rfl
  | struct p id fs =>
    simp only [unnumberedItem, enumCreateMethod, e, List.foldl_map, field_type, field_name]
    rfl

theorem dart_enumItemClass (n : EnumNode) (w : Writer) (k : Nat) (i : EnumItem) :
    enumItemClass x (noNumsE n) w k (unnumberedItem i) = enumItemClass x n w k i := by
  have e : (noNumsE n).items.length = n.items.length := List.length_map _
  unfold enumItemClass
  rcases dart_itemStruct n i with h | h <;> simp only [h, e, dart_structModel]

theorem dart_enumModel (n : EnumNode) : enumModel x (noNumsE n) = enumModel x n := by
  have e1 := foldIdx_map (enumToMethod x (noNumsE n)) (enumToMethod x n) unnumberedItem (dart_enumToMethod x n) 0 n.items
  have e2 := foldIdx_map (enumCreateMethod x (noNumsE n)) (enumCreateMethod x n) unnumberedItem (dart_enumCreateMethod x n) 0 n.items
  have e3 := foldIdx_map (enumItemClass x (noNumsE n)) (enumItemClass x n) unnumberedItem (dart_enumItemClass x n) 0 n.items
  have e4 : ∀ i, enumItemFactory (noNumsE n) (unnumberedItem i) = enumItemFactory n i := fun i => by cases i <;> rfl
  have e5 : (noNumsE n).items = n.items.map unnumberedItem := rfl
  have e6 : (noNumsE n).id = n.id := rfl
  unfold enumModel
  simp only [e5, e6, e1, e2, e3, List.foldl_map, item_id, e4]
  cases n.items with
  | nil => rfl
  | cons i is => simp only [List.map_cons, List.head?_cons, item_id]

theorem dart_structSkip (sk : TypeId → Except Panic String) (n : StructNode) : structSkip sk (noNums n) = structSkip sk n := by
  unfold structSkip noNums
  dsimp only
  rw [loopM_map _ (fun w (f : StructField) => if isOther f.typeId then lineM 2 sk w f.typeId else .ok w) unnumberedField (fun _ _ => rfl),
    List.any_map]
  have e : ∀ w, loopM (fun w (f : StructField) => if isOther f.typeId then .ok w else lineM 3 sk w f.typeId) (n.fields.map unnumberedField) w =
      loopM (fun w (f : StructField) => if isOther f.typeId then .ok w else lineM 3 sk w f.typeId) n.fields w :=
    loopM_map _ _ unnumberedField (fun _ _ => rfl) _
  simp only [e]
  rfl

theorem dart_structInto (n : StructNode) : structInto x (noNums n) = structInto x n := by
  have e1 : structIntoRead x (noNums n) = structIntoRead x n := by
    unfold structIntoRead noNums
    dsimp only
    rw [loopM_map _ (lineM 2 (readLocal x)) unnumberedField (fun _ _ => rfl)]
    simp only [List.foldl_map, field_name]
  have e2 : structIntoWrite x (noNums n) = structIntoWrite x n := by
    unfold structIntoWrite noNums
    dsimp only
    rw [loopM_map _ (lineM 2 (fun (f : StructField) => write f.typeId ("model." ++ x.camel f.name))) unnumberedField (fun _ _ => rfl)]
  unfold structInto
  rw [e1, e2, dart_structSkip]
  rfl

theorem dart_structEmplace (n : StructNode) : structEmplace x (noNums n) = structEmplace x n := by
  have e1 : structEmplaceRead x (noNums n) = structEmplaceRead x n := by
    unfold structEmplaceRead noNums
    dsimp only
    rw [loopM_map _ (lineM 2 (fun (f : StructField) => readEmplace f.typeId ("model." ++ x.camel f.name))) unnumberedField (fun _ _ => rfl)]
  have e2 : structEmplaceWrite x (noNums n) = structEmplaceWrite x n := by
    unfold structEmplaceWrite noNums
    dsimp only
    rw [loopM_map _ (lineM 2 (fun (f : StructField) => writeEmplace f.typeId ("model." ++ x.camel f.name))) unnumberedField (fun _ _ => rfl)]
  unfold structEmplace
  rw [e1, e2, dart_structSkip]
  rfl

theorem dart_structBuffers (n : StructNode) : structBuffers x (noNums n) = structBuffers x n := by
  unfold structBuffers
  rw [dart_structEmplace, dart_structInto]
  rfl

theorem dart_enumBuffers (n : EnumNode) : enumBuffers x (noNumsE n) = enumBuffers x n := by
  have e0 : (noNumsE n).items.length = n.items.length := List.length_map _
  have e1 : ∀ w i, enumVariantItem x (noNumsE n) w (unnumberedItem i) = enumVariantItem x n w i := by
    intro w i
    unfold enumVariantItem
    rcases dart_itemStruct n i with h | h <;> simp only [h, dart_structEmplace]
  have e2 : enumWrite x (noNumsE n) = enumWrite x n := by
    have e := foldIdx_map (enumWriteItem x (noNumsE n)) (enumWriteItem x n) unnumberedItem
      (fun w k i => by simp only [enumWriteItem, item_id, item_position, e0]; rfl) 0 n.items
    have e5 : (noNumsE n).items = n.items.map unnumberedItem := rfl
    unfold enumWrite
    simp only [e5, e]
    rfl
  have e3 : enumSkip (noNumsE n) = enumSkip n := by
    have e := foldl_map_eq (enumSkipItem (noNumsE n)) (enumSkipItem n) unnumberedItem
      (fun w i => by simp only [enumSkipItem, item_id, item_position]; rfl) n.items
    have e5 : (noNumsE n).items = n.items.map unnumberedItem := rfl
    unfold enumSkip
    simp only [e5, e]
  have e4 : enumIntoRead x (noNumsE n) = enumIntoRead x n := by
    have e := foldl_map_eq (enumIntoReadItem x (noNumsE n)) (enumIntoReadItem x n) unnumberedItem
      (fun w i => by simp only [enumIntoReadItem, item_id, item_position]; rfl) n.items
    have e5 : (noNumsE n).items = n.items.map unnumberedItem := rfl
    unfold enumIntoRead
    simp only [e5, e]
    rfl
  have e6 : enumEmplaceRead x (noNumsE n) = enumEmplaceRead x n := by
    have e := foldl_map_eq (enumEmplaceReadItem x (noNumsE n)) (enumEmplaceReadItem x n) unnumberedItem
      (fun w i => by simp only [enumEmplaceReadItem, item_id, item_position]; rfl) n.items
    have e5 : (noNumsE n).items = n.items.map unnumberedItem := rfl
    unfold enumEmplaceRead
    simp only [e5, e]
    rfl
  have e7 : enumInto x (noNumsE n) = enumInto x n := by
    unfold enumInto
    rw [e4, e2, e3]
    rfl
  have e8 : enumEmplace x (noNumsE n) = enumEmplace x n := by
    unfold enumEmplace
    rw [e6, e2, e3]
    rfl
  unfold enumBuffers
  rw [e7, e8, show (noNumsE n).items = n.items.map unnumberedItem from rfl, loopM_map _ _ _ e1]

theorem dart_models (S : List ASTNode) : models x (S.map unnumbered) = models x S := by
  unfold models
  rw [loopM_map _ (modelsItem x)]
  intro w d
  cases d with
  | struct n =>
    show modelsItem x w (.struct (noNums n)) = _
    simp only [modelsItem, dart_structModel]
  | enum n =>
    show modelsItem x w (.enum (noNumsE n)) = _
    simp only [modelsItem, dart_enumModel]
  | _ => rfl

theorem dart_buffers (S : List ASTNode) : buffers x (S.map unnumbered) = buffers x S := by
  unfold buffers
  rw [loopM_map _ (buffersItem x)]
  intro w d
  cases d with
  | struct n =>
    show buffersItem x w (.struct (noNums n)) = _
    simp only [buffersItem, dart_structBuffers]
  | enum n =>
    show buffersItem x w (.enum (noNumsE n)) = _
    simp only [buffersItem, dart_enumBuffers]
  | _ => rfl

theorem dart_consts (S : List ASTNode) : consts x (S.map unnumbered) = consts x S := by
  unfold consts
  dsimp only
  rw [foldl_map_eq (constsDeclItem x) (constsDeclItem x) _ (fun w d => by cases d <;> rfl) S]
  rw [foldl_map_eq (constsImplItem x) (constsImplItem x) _ (fun w d => by cases d <;> rfl) S]

theorem dart_rpc (S : List ASTNode) : rpcMethods x (S.map unnumbered) = rpcMethods x S := by
  have e : ∀ a, stringDirective (S.map unnumbered) a = stringDirective S a := by
    intro a
    unfold stringDirective
    rw [value]
  unfold rpcMethods
  rw [hasFns, e, e]

theorem dart_generate (S : List ASTNode) (m b r : Bool) : generate x (S.map unnumbered) m b r = generate x S m b r := by
  unfold generate
  rw [hasFns, values, hasConst, dart_consts, dart_models, dart_buffers, dart_rpc]

end Dart

/-! ### Kotlin and Swift -/

theorem kotlin_tupleParams (vs : List TupleField) : ∀ i, KotlinGen.tupleParams i (vs.map unnumberedValue) = KotlinGen.tupleParams i vs := by
  induction vs with
  | nil => intro i; rfl
  | cons v vs ih => intro i; simp only [List.map_cons, KotlinGen.tupleParams, ih, value_type]

theorem kotlin_enumModel (n : EnumNode) : KotlinGen.enumModel (noNumsE n) = KotlinGen.enumModel n := by
  have e1 : ∀ e i, KotlinGen.enumCase e (unnumberedItem i) = KotlinGen.enumCase e i := by
    intro e i
    cases i with
    | empty p id => rfl
    | tuple p id vs => simp only [unnumberedItem, KotlinGen.enumCase, kotlin_tupleParams]
    | struct p id fs => simp only [unnumberedItem, KotlinGen.enumCase, List.map_map]; rfl
  have e2 : ∀ e i, KotlinGen.enumDefault e (unnumberedItem i) = KotlinGen.enumDefault e i := by
    intro e i
    cases i with
    | empty p id => rfl
    | tuple p id vs => simp only [unnumberedItem, KotlinGen.enumDefault, List.map_map]; rfl
    | struct p id fs => simp only [unnumberedItem, KotlinGen.enumDefault, List.map_map]; rfl
  obtain ⟨id, items⟩ := n
  cases items with
  | nil => rfl
  | cons i is => simp [KotlinGen.enumModel, KotlinGen.enumInterface, noNumsE, e1, e2]

theorem kotlin_models (x : ExtF) (S : List ASTNode) : KotlinGen.models x (S.map unnumbered) = KotlinGen.models x S := by
  have e : ∀ d, KotlinGen.modelsItem x (unnumbered d) = KotlinGen.modelsItem x d := by
    intro d
    cases d with
    | struct n =>
      obtain ⟨id, fs, a, b⟩ := n
      simp only [unnumbered, KotlinGen.modelsItem, KotlinGen.structModel, List.map_map, isEmpty_map]
      rfl
    | enum n => exact kotlin_enumModel n
    | _ => rfl
  have e' : KotlinGen.modelTokens x (S.map unnumbered) = KotlinGen.modelTokens x S := by
    induction S with
    | nil => rfl
    | cons d S ih => simp only [List.map_cons, KotlinGen.modelTokens, ih, e]
  unfold KotlinGen.models
  rw [e']

theorem kotlin_consts (x : ExtF) (S : List ASTNode) : KotlinGen.consts x (S.map unnumbered) = KotlinGen.consts x S := by
  unfold KotlinGen.consts
  rw [List.flatMap_map]
  congr 1
  exact congrArg (fun f => List.flatMap f S) (funext fun d => by cases d <;> rfl)

theorem swift_enumModel (x : ExtF) (n : EnumNode) : SwiftGen.enumModel x (noNumsE n) = SwiftGen.enumModel x n := by
  have e1 : ∀ i, SwiftGen.enumCase (unnumberedItem i) = SwiftGen.enumCase i := by
    intro i
    cases i with
    | empty p id => rfl
    | tuple p id vs => simp only [unnumberedItem, SwiftGen.enumCase, SwiftGen.caseParams, List.map_map]; rfl
    | struct p id fs => simp only [unnumberedItem, SwiftGen.enumCase, SwiftGen.caseParams, List.map_map]; rfl
  have e2 : ∀ i, SwiftGen.enumDefault x (unnumberedItem i) = SwiftGen.enumDefault x i := by
    intro i
    cases i with
    | empty p id => rfl
    | tuple p id vs => simp only [unnumberedItem, SwiftGen.enumDefault, List.map_map]; rfl
    | struct p id fs => simp only [unnumberedItem, SwiftGen.enumDefault, List.map_map]; rfl
  obtain ⟨id, items⟩ := n
  cases items with
  | nil => rfl
  | cons i is => simp [SwiftGen.enumModel, noNumsE, e1, e2]

theorem swift_models (x : ExtF) (S : List ASTNode) : SwiftGen.models x (S.map unnumbered) = SwiftGen.models x S := by
  have e : ∀ d, SwiftGen.modelsItem x (unnumbered d) = SwiftGen.modelsItem x d := by
    intro d
    cases d with
    | struct n =>
      obtain ⟨id, fs, a, b⟩ := n
      simp only [unnumbered, SwiftGen.modelsItem, SwiftGen.structModel, List.map_map]
      rfl
    | enum n =>
      show SwiftGen.modelsItem x (.enum (noNumsE n)) = _
      simp only [SwiftGen.modelsItem, swift_enumModel]
    | _ => rfl
  have e' : SwiftGen.modelTokens x (S.map unnumbered) = SwiftGen.modelTokens x S := by
    induction S with
    | nil => rfl
    | cons d S ih => simp only [List.map_cons, SwiftGen.modelTokens, ih, e]
  unfold SwiftGen.models
  rw [e']

theorem swift_consts (x : ExtF) (S : List ASTNode) : SwiftGen.consts x (S.map unnumbered) = SwiftGen.consts x S := by
  unfold SwiftGen.consts
  rw [List.flatMap_map]
  congr 1
  exact congrArg (fun f => List.flatMap f S) (funext fun d => by cases d <;> rfl)

end TPB.FieldNumbers
