/-
Property theorems about the methods of the emitted Dart model classes on objects in memory: C91.

`Dart.hCallNew`, `Dart.HCreatesV`, `Dart.hCallTo` and `Dart.hCallIs` run the emitted constructors and methods with
references to objects (`Sem/DartHeapMethods.lean`); `CallRefs` says how a payload is passed
(`Spec/DartHeapMethods.lean`).
-/
import Verif.Proofs.DartHeapMethods
import Verif.Props.DartHeap
import Verif.Props.DartMethods
namespace TPB.Props
open Spec
open Dart (Ref Cell Heap Kind)

/-- In the memory `h` the references `rs` of the types `ts` stand for the objects `ds`, whose parts are the objects
`fp`; if `sep` holds, none of them can be reached in two ways. -/
def HoldAll (sep : Prop) (x : Ext) (S : List ASTNode) (ts : List TypeId) (h : Heap) (rs : List Ref) (ds : List Val)
    (fp : List Ref) : Prop :=
  Stored sep x (dartSchema S) h (ts.map dartView) rs ds fp

/-- **C91 (partial), structs.** The constructor of a struct class, called with the objects of all fields by name, in any
order, makes one new object.  It stands for the struct with the values of these objects, its fields refer to the objects
that were passed, and if these shared no parts, it has no shared parts.  No object is changed.
Missing: schemas whose names cannot be told apart in Dart (here and below). -/
theorem C91_struct_partial (x : Ext) (S : List ASTNode) (hA : Accepted S) (hN : DartNamed x S) :
    ∃ P, Dart.Emits x S P ∧ ∀ n, .struct n ∈ S → ∀ vs ds, RepresentAll x S ((fieldsOf n).map (·.2)) vs ds →
      ∀ sep h rs gp args, HoldAll sep x S ((fieldsOf n).map (·.2)) h rs ds gp → args.Perm ((dartFieldNames x n).zip rs) →
      ∃ h' d fp, Dart.hCallNew P n.id args h = .ok (h.length, h') ∧
        Represents x S (.other n.id) (.struct n.id (named (fieldsOf n) vs)) d ∧
        HoldAll sep x S [.other n.id] h' [h.length] [d] fp ∧ OnlyChanges [] h h' ∧ (∀ q ∈ fp, q ∈ gp ∨ h.length ≤ q) ∧
        ∀ f r, (f, r) ∈ (dartFieldNames x n).zip rs → Dart.hGet f h.length h' = .ok r := by
  have hS := Dart.plain_of_accepted hA
  refine ⟨_, Dart.emits_genProg hA, fun n hn vs ds hr sep h rs gp args hg ha => ?_⟩
  obtain ⟨d, fp, h1, h2, h3, h4⟩ := Dart.heap_new (sep := sep) hS hN hn (vs := vs) (ds := ds)
    (by simpa [RepresentAll, fieldsOf, Function.comp_def] using hr) (h := h) (rs := rs) (gp := gp)
    (by simpa [HoldAll, fieldsOf, Function.comp_def] using hg) ha
  have hl : (dartFieldNames x n).length = rs.length := by
    have := Stored.length_eq hg
    simpa [dartFieldNames, fieldsOf] using this.1.symm
  refine ⟨_, d, fp, h1, h2, h3, ⟨by simp, fun q hq _ => List.getElem?_append_left hq⟩, h4, fun f r hf => ?_⟩
  simp only [Dart.hGet, Dart.alloc_get, Dart.lookup_nodupR (by rw [Dart.fst_zipR hl]; exact (hN.fields n hn).1) hf]
  rfl

/-- **C91 (partial), createV.** `createV` of an enum class makes a new object that stands for the variant `V` with the
values of the objects that were passed, if the enum does not contain itself.  The payload refers to these objects; all
other parts are new, and if the arguments shared no parts, the object has no shared parts.  No object is changed. -/
theorem C91_create_partial (x : Ext) (rt : Dart.Runtime) (hrt : rt.Lawful) (hL : EmptyLists rt) (S : List ASTNode)
    (hA : Accepted S) (hN : DartNamed x S) (hV : VariantsPlain S) (hE : EnumsOk x S) :
    ∃ P, Dart.Emits x S P ∧ ∀ n, .enum n ∈ S → Built S n.id → ∀ i ∈ n.items, ∀ vs ds,
      RepresentAll x S ((payload i).map (·.2)) vs ds → ∀ sep h rs gp args, HoldAll sep x S ((payload i).map (·.2)) h rs ds gp →
      CallRefs x i rs args →
      ∃ o p h' d fp, Dart.HCreatesV rt P n.id ("create" ++ x.pascal i.id) args h o h' ∧
        Represents x S (.other n.id) (.enum n.id i.id (named (payload i) vs)) d ∧
        HoldAll sep x S [.other n.id] h' [o] [d] fp ∧ h.length ≤ o ∧ OnlyChanges [] h h' ∧ (∀ q ∈ fp, q ∈ gp ∨ h.length ≤ q) ∧
        Dart.hGet (x.camel i.id) o h' = .ok p ∧ h.length ≤ p ∧
        ∀ f r, (f, r) ∈ (dartPayloadNames x i).zip rs → Dart.hGet f p h' = .ok r := by
  have hS := Dart.plain_of_accepted hA
  refine ⟨_, Dart.emits_genProg hA, fun n hn hB i hi vs ds hr sep h rs gp args hg ha => ?_⟩
  obtain ⟨o, p, h', d, fp, e1, e2, e3, e4, e5, e6, e7, e8, e9, e10⟩ :=
    Dart.heap_create hrt hS hN hV hL hB (hE n hn) hn hi hr hg ha
  have hl : (dartPayloadNames x i).length = rs.length := by
    rw [Dart.dartPayloadNames_length]
    simpa using (Stored.length_eq hg).1.symm
  refine ⟨o, p, h', d, fp, e1, e2, e3, e6, ⟨e8, fun q hq _ => e9 q hq⟩, e10, e4, e7, fun f r hf => ?_⟩
  simp only [Dart.hGet, e5, Dart.lookup_nodupR (by rw [Dart.fst_zipR hl]; exact hN.payloads n hn i hi) hf]
  rfl

/-- **C91 (partial), toV.** `toV` turns an object of an enum class none of whose parts is shared into one that stands for
the variant `V` with the values of the objects that were passed, if neither the object nor its payload object for `V` is a
part of the arguments.  Only these two objects are changed, and the payload object refers to the arguments.  If the
arguments share no parts with each other or with the object, the object has no shared parts afterwards either.
Missing: arguments that contain the object, see `C91_cycle`; objects with shared parts. -/
theorem C91_to_partial (x : Ext) (S : List ASTNode) (hA : Accepted S) (hN : DartNamed x S) (hE : EnumsOk x S) :
    ∃ P, Dart.Emits x S P ∧ ∀ n, .enum n ∈ S → ∀ i ∈ n.items, ∀ vs ds, RepresentAll x S ((payload i).map (·.2)) vs ds →
      ∀ h o old fp, HoldsApart x S (.other n.id) h o old fp →
      ∀ sep rs gp args, HoldAll sep x S ((payload i).map (·.2)) h rs ds gp → CallRefs x i rs args →
      o ∉ gp → (∀ p, Dart.hGet (x.camel i.id) o h = .ok p → p ∉ gp) → (sep → ∀ q ∈ gp, q ∉ fp) →
      ∃ p h' d fp', Dart.hCallTo P n.id ("to" ++ x.pascal i.id) args o h = .ok h' ∧
        Represents x S (.other n.id) (.enum n.id i.id (named (payload i) vs)) d ∧
        HoldAll sep x S [.other n.id] h' [o] [d] fp' ∧ Dart.hGet (x.camel i.id) o h = .ok p ∧ p ∈ fp ∧
        OnlyChanges [o, p] h h' ∧ (∀ q ∈ fp', q ∈ fp ∨ q ∈ gp ∨ h.length ≤ q) ∧ Dart.hGet (x.camel i.id) o h' = .ok p ∧
        ∀ f r, (f, r) ∈ (dartPayloadNames x i).zip rs → Dart.hGet f p h' = .ok r := by
  have hS := Dart.plain_of_accepted hA
  refine ⟨_, Dart.emits_genProg hA, fun n hn i hi vs ds hr h o old fp hs sep rs gp args hg ha hog hpg hdis => ?_⟩
  obtain ⟨p, h', d, fp', e1, e2, e3, e4, e5, e6, e7, e8, e9, e10⟩ :=
    Dart.heap_to hS hN (hE n hn) hn hi hs hr hg hog hpg hdis ha
  have hl : (dartPayloadNames x i).length = rs.length := by
    rw [Dart.dartPayloadNames_length]
    simpa using (Stored.length_eq hg).1.symm
  refine ⟨p, h', d, fp', e3, e4, e5, e1, e2, ⟨e8, fun q hq hq' => ?_⟩, e10, e6, fun f r hf => ?_⟩
  · simp only [List.mem_cons, List.not_mem_nil, or_false, not_or] at hq'
    exact e9 q hq hq'.1 hq'.2
  · simp only [Dart.hGet, e7, Dart.lookup_nodupR (by rw [Dart.fst_zipR hl]; exact hN.payloads n hn i hi) hf]
    rfl

/-- **C91 (partial), isV.** `isV` of an object in memory, shared or not, tells whether the value that it stands for is of
the variant `V`. -/
theorem C91_is_partial (x : Ext) (S : List ASTNode) (hA : Accepted S) (hN : DartNamed x S) (hE : EnumsOk x S) :
    ∃ P, Dart.Emits x S P ∧ ∀ n, .enum n ∈ S → ∀ id pl d, Represents x S (.other n.id) (.enum n.id id pl) d →
      ∀ h o fp, Holds x S (.other n.id) h o d fp →
      ∀ j ∈ n.items, Dart.hCallIs P n.id ("is" ++ x.pascal j.id) o h = .ok (decide (j.id = id)) :=
  ⟨_, Dart.emits_genProg hA, fun n hn _ _ _ hd _ _ _ hs _ hj =>
    Dart.heap_is (Dart.plain_of_accepted hA) hN (hE n hn) hn hj hd hs⟩

/-! ### Examples -/

/-- Two points, the objects 3 and 8, a flag and a number. -/
def pointHeap : Heap := [.val (.ext "String" 1), .val (.int 4), .list 0 [], .obj "Point" [("name", 0), ("xPos", 1), ("path", 2)],
  .val (.bool true), .val (.ext "String" 2), .val (.int (-3)), .list 0 [],
  .obj "Point" [("name", 5), ("xPos", 6), ("path", 7)], .val (.num 7)]

theorem pointHeap_stored {sep : Prop} (z : Int) (name : Nat) (r r1 r2 r3 : Ref) (hd : r ≠ r1 ∧ r ≠ r2 ∧ r ≠ r3 ∧ r1 ≠ r2 ∧ r1 ≠ r3 ∧ r2 ≠ r3)
    (h : Heap) (e : h[r]? = some (.obj "Point" [("name", r1), ("xPos", r2), ("path", r3)])) (e1 : h[r1]? = some (.val (.ext "String" name)))
    (e2 : h[r2]? = some (.val (.int z))) (e3 : h[r3]? = some (.list 0 []))
    (ts : List TypeId) (rs : List Ref) (vs : List Val) (g : List Ref)
    (hg : Stored sep testExt (dartSchema dartExample) h ts rs vs g) (hs : sep → r ∉ g ∧ ∀ q ∈ [r1, r2, r3], q ∉ g) :
    Stored sep testExt (dartSchema dartExample) h (.other "Point" :: ts) (r :: rs) (pointObj z name :: vs) (r :: ([r1, r2, r3] ++ g)) := by
  have hn : dartObjects testExt (dartSchema dartExample) |>.map (·.1) |> (· = ["Point", "Shape", "ShapeNone", "ShapeCircle", "ShapeRect", "Nothing"]) := by
    decide +kernel
  have hlib : ∀ t : TypeId, (∀ id ∈ ["Point", "Shape", "ShapeNone", "ShapeCircle", "ShapeRect", "Nothing"], t ≠ .other id) →
      ∀ c ∈ dartObjects testExt (dartSchema dartExample), t ≠ .other c.1 := fun t ht c hc =>
    ht c.1 (hn ▸ List.mem_map.2 ⟨c, hc, rfl⟩)
  have hm : ("Point", [("name", TypeId.other "String"), ("xPos", .integer "Int32" 4 true), ("path", .generic "Vec" [.other "Point"])])
      ∈ dartObjects testExt (dartSchema dartExample) := by
    have e : dartFieldNames testExt ⟨"Point", [⟨0, "name", .other "String"⟩, ⟨1, "x_pos", .integer "Int32" 4 true⟩,
      ⟨2, "path", .generic "Vec" [.other "Point"]⟩], true, true⟩ = ["name", "xPos", "path"] := by decide +kernel
    refine List.mem_flatMap.2 ⟨.struct ⟨"Point", [⟨0, "name", .other "String"⟩, ⟨1, "x_pos", .integer "Int32" 4 true⟩,
      ⟨2, "path", .generic "Vec" [.other "Point"]⟩], true, true⟩,
      by simp [dartExample, dartSchema, viewDecl, viewField, dartView, dartPrim, dartElem], ?_⟩
    simp [e, fieldsOf]
  exact .obj "Point" _ r [r1, r2, r3] [.ext "String" name, .int z, .list 0 []] [r1, r2, r3] ts rs vs g hm e
    (.val _ r1 _ _ _ _ _ (hlib _ (by simp)) (by simp) e1 (.val _ r2 _ _ _ _ _ (hlib _ (by simp)) (by simp) e2
      (.list (.other "Point") r3 0 [] [] [] [] [] [] [] (by rw [e3]; rfl) .nil .nil (by simp)) (by simp [hd])) (by simp [hd])) hg
    (fun s => ⟨by simp [hd], (hs s).1, (hs s).2⟩)

theorem lib_stored {sep : Prop} {h : Heap} {t : TypeId} {r : Ref} {v : Val} (hl : Dart.IsLib testExt dartExample t)
    (hr : h[r]? = some (.val v)) : Stored sep testExt (dartSchema dartExample) h [dartView t] [r] [v] [r] := Dart.stored_val hl hr

/-- Non-vacuity: in the example schema `createRect(b: true, a: point)` makes a `Rect` that holds the caller's point;
`toCircle(otherPoint, 2.5)` then turns this object into a `Circle`, and `isRect` and `isCircle` tell them apart. -/
example : ∃ P o p h d fp h' d' fp', Dart.Emits testExt dartExample P ∧
    Dart.HCreatesV listRuntime P "Shape" "createRect" (.named [("b", 4), ("a", 3)]) pointHeap o h ∧
    HoldsApart testExt dartExample (.other "Shape") h o d fp ∧ Dart.hGet "rect" o h = .ok p ∧ Dart.hGet "a" p h = .ok 3 ∧
    Dart.hCallIs P "Shape" "isRect" o h = .ok true ∧ Dart.hCallIs P "Shape" "isCircle" o h = .ok false ∧
    Dart.hCallTo P "Shape" "toCircle" (.positional [8, 9]) o h = .ok h' ∧
    HoldsApart testExt dartExample (.other "Shape") h' o d' fp' ∧
    Dart.hCallIs P "Shape" "isRect" o h' = .ok false ∧ Dart.hCallIs P "Shape" "isCircle" o h' = .ok true := by
  have hS := Dart.plain_of_accepted dartExample_accepted
  have hE : EnumsOk testExt dartExample := dartExample_typable.enums
  have hm : ASTNode.enum ⟨"Shape", [.empty 3 "None", .tuple 7 "Circle" [⟨0, .other "Point"⟩, ⟨1, .number "f64" 8⟩],
      .struct 1 "Rect" [⟨0, "a", .other "Point"⟩, ⟨1, "b", .bool "bool"⟩]]⟩ ∈ dartExample := by simp [dartExample]
  have hr : "create" ++ testExt.pascal "Rect" = "createRect" ∧ "is" ++ testExt.pascal "Rect" = "isRect" ∧
      "is" ++ testExt.pascal "Circle" = "isCircle" ∧ "to" ++ testExt.pascal "Circle" = "toCircle" ∧ testExt.camel "Rect" = "rect" := by decide +kernel
  have hnames : dartPayloadNames testExt (.struct 1 "Rect" [⟨0, "a", .other "Point"⟩, ⟨1, "b", .bool "bool"⟩]) = ["a", "b"] := by
    decide +kernel
  have ha : CallRefs testExt (.struct 1 "Rect" [⟨0, "a", .other "Point"⟩, ⟨1, "b", .bool "bool"⟩]) [3, 4]
      (.named [("b", 4), ("a", 3)]) := by
    refine ⟨⟨_, _, _, rfl⟩, ?_⟩
    rw [hnames]
    exact .swap _ _ _
  obtain ⟨o, p, h, d, fp, e1, e2, e3, e4, e5, e6, e7, e8, e9, e10⟩ := Dart.heap_create (sep := True) listRuntime_lawful hS dartExample_named
    dartExample_plain listRuntime_empty (Dart.built_of_hasDefaults dartExample_defaults _) (hE _ hm) hm
    (i := .struct 1 "Rect" [⟨0, "a", .other "Point"⟩, ⟨1, "b", .bool "bool"⟩]) (by simp) (h := pointHeap)
    (pointObj_represents 4 1 _ _ _ (.leaf _ (.bool true) _ _ _ rfl .nil))
    (pointHeap_stored 4 1 3 0 1 2 (by decide) pointHeap rfl rfl rfl rfl _ _ _ _
      (lib_stored (t := .bool "bool") (r := 4) (v := .bool true) (Dart.isLib_builtin (p := "Bool") rfl) rfl) (by simp)) ha
  have hst : Stored True testExt (dartSchema dartExample) pointHeap [.other "Point", .number "Double" 8] [8, 9] [pointObj (-3) 2, .num 7] _ :=
    pointHeap_stored (-3) 2 8 5 6 7 (by decide) pointHeap rfl rfl rfl rfl _ _ _ _
      (lib_stored (t := .number "f64" 8) (r := 9) (v := .num 7) (Dart.isLib_builtin (p := "Double") rfl) rfl) (by simp)
  have hst' := hst.frame (h' := h) fun q hq => e9 q (hst.lt q hq)
  have hgp : ∀ q ∈ [8, 5, 6, 7, 9], q < 10 ∧ q ∉ [3, 0, 1, 2, 4] := by decide
  obtain ⟨p', h', d', fp', f1, f2, f3, f4, f5, -⟩ := Dart.heap_to (sep := True) hS dartExample_named (hE _ hm) hm
    (i := .tuple 7 "Circle" [⟨0, .other "Point"⟩, ⟨1, .number "f64" 8⟩]) (by simp) e3
    (pointObj_represents (-3) 2 _ _ _ (.leaf _ (.num 7) _ _ _ rfl .nil)) hst'
    (fun hq => Nat.not_lt_of_le e6 (hst.lt o hq))
    (fun p hp hq => by
      obtain ⟨as, is, f, hr, -, hs', -, hm'⟩ := Dart.stored_class dartExample_named (Dart.table_enum hm) e3
      have hp' := (hm' p).2 (.inr (Dart.stored_get hr hs' hp))
      rcases e10 p hp' with h | h
      · exact (hgp p hq).2 h
      · exact Nat.not_lt_of_le h (hst.lt p hq))
    (fun _ q hq hq' => by
      rcases e10 q hq' with h | h
      · exact (hgp q hq).2 h
      · exact Nat.not_lt_of_le h (hst.lt q hq)) (args := .positional [8, 9]) ⟨by simp, rfl⟩
  have is := fun (j) (hj) (id) (pl) (d) (hd) (h) (o) (fp) (hs) => Dart.heap_is (sep := True) hS dartExample_named (hE _ hm) hm (j := j) hj (id := id) (pl := pl) (d := d) hd
    (h := h) (o := o) (fp := fp) hs
  simp only [EnumItem.id] at e1 e4 f3
  rw [hr.1] at e1
  rw [hr.2.2.2.1] at f3
  rw [hr.2.2.2.2] at e4
  refine ⟨_, o, p, h, d, fp, h', d', fp', Dart.emits_genProg dartExample_accepted, e1, e3, e4, ?_, ?_, ?_, f3, f5, ?_, ?_⟩
  · rw [hnames] at e5
    simp only [Dart.hGet, e5]
    rfl
  · have := is (.struct 1 "Rect" [⟨0, "a", .other "Point"⟩, ⟨1, "b", .bool "bool"⟩]) (by simp) _ _ _ e2 _ _ _ e3
    simpa only [EnumItem.id, hr.2.1, decide_true] using this
  · have := is (.tuple 7 "Circle" [⟨0, .other "Point"⟩, ⟨1, .number "f64" 8⟩]) (by simp) _ _ _ e2 _ _ _ e3
    simp only [EnumItem.id, hr.2.2.1] at this
    exact this
  · have := is (.struct 1 "Rect" [⟨0, "a", .other "Point"⟩, ⟨1, "b", .bool "bool"⟩]) (by simp) _ _ _ f4 _ _ _ f5
    simp only [EnumItem.id, hr.2.1] at this
    exact this
  · have := is (.tuple 7 "Circle" [⟨0, .other "Point"⟩, ⟨1, .number "f64" 8⟩]) (by simp) _ _ _ f4 _ _ _ f5
    simp only [EnumItem.id, hr.2.2.1] at this
    exact this

/-! ### Arguments are kept, not copied -/

/-- The caller's objects: `Num(v: 5)` is the object 1 and `Num(v: 6)` the object 3. -/
def twoNums : Heap := [.val (.int 5), .obj "Num" [("v", 0)], .val (.int 6), .obj "Num" [("v", 2)]]

theorem pairObjects : dartObjects testExt (dartSchema pairSchema)
    = [("Num", [("v", .integer "Int32" 4 true)]), ("Pair", [("a", .other "Num"), ("b", .other "Num")])] := by
  have hc : testExt.camel "v" = "v" ∧ testExt.camel "a" = "a" ∧ testExt.camel "b" = "b" := by decide +kernel
  simp [dartObjects, pairSchema, dartSchema, viewDecl, viewField, dartView, dartPrim, dartFieldNames, fieldsOf, hc.1, hc.2.1, hc.2.2]

theorem num_stored {sep : Prop} (h : Heap) (z : Int) (r t : Ref) (h1 : h[r]? = some (.obj "Num" [("v", t)]))
    (ht : h[t]? = some (.val (.int z))) (hrt : r ≠ t) (ts : List TypeId) (rs : List Ref) (vs : List Val) (g : List Ref)
    (hg : Stored sep testExt (dartSchema pairSchema) h ts rs vs g) (hd : sep → r ∉ g ∧ t ∉ g) :
    Stored sep testExt (dartSchema pairSchema) h (.other "Num" :: ts) (r :: rs) (num z :: vs) (r :: ([t] ++ g)) :=
  .obj "Num" [("v", .integer "Int32" 4 true)] r [t] [.int z] [t] ts rs vs g (by rw [pairObjects]; simp) h1
    (.val _ _ _ _ _ _ _ (by rw [pairObjects]; simp) (by simp) ht .nil (by simp)) hg
    (fun s => ⟨by simpa using hrt, (hd s).1, by simpa using (hd s).2⟩)

/-- **C91, arguments are kept.** `Pair(a: n, b: m)` makes a pair none of whose parts is shared, but the caller still has
`n`: reading the bytes of `Pair { a: 1, b: 2 }` in place into the pair changes `n` from `Num { v: 5 }` to `Num { v: 1 }`. -/
theorem C91_arguments_kept :
    Accepted pairSchema ∧ DartNamed testExt pairSchema ∧
    Dart.Emits testExt pairSchema (Dart.genProg testExt pairSchema) ∧
    (∃ fp, HoldsApart testExt pairSchema (.other "Num") twoNums 1 (num 5) fp) ∧
    ∃ h h', Dart.hCallNew (Dart.genProg testExt pairSchema) "Pair" [("a", 1), ("b", 3)] twoNums = .ok (4, h) ∧
      (∃ fp, HoldsApart testExt pairSchema (.other "Pair") h 4 (pair 5 6) fp) ∧
      Dart.HEmplaces LE.dart (Dart.genProg testExt pairSchema) "Pair" 4 h [1, 0, 0, 0, 2, 0, 0, 0] h' [] ∧
      (∃ fp, HoldsApart testExt pairSchema (.other "Pair") h' 4 (pair 1 2) fp) ∧
      ∃ fp, HoldsApart testExt pairSchema (.other "Num") h' 1 (num 1) fp := by
  refine ⟨pairSchema_accepted, pairSchema_named, Dart.emits_genProg pairSchema_accepted,
    ⟨_, num_stored twoNums 5 1 0 rfl rfl (by decide) _ _ _ _ .nil (by simp)⟩,
    twoNums ++ [.obj "Pair" [("a", 1), ("b", 3)]],
    [.val (.int 5), .obj "Num" [("v", 5)], .val (.int 6), .obj "Num" [("v", 6)], .obj "Pair" [("a", 1), ("b", 3)],
      .val (.int 1), .val (.int 2)], rfl, ?_, ⟨4, fun k hk => ?_⟩, ?_,
    ⟨_, num_stored _ 1 1 5 rfl rfl (by decide) _ _ _ _ .nil (by simp)⟩⟩
  · exact ⟨_, .obj "Pair" [("a", .other "Num"), ("b", .other "Num")] 4 [1, 3] [num 5, num 6] _ [] [] [] [] (by rw [pairObjects]; simp) rfl
      (num_stored _ 5 1 0 rfl rfl (by decide) _ _ _ _ (num_stored _ 6 3 2 rfl rfl (by decide) _ _ _ _ .nil (by simp)) (by simp))
      .nil (by simp)⟩
  · obtain ⟨k, rfl⟩ : ∃ j, k = j + 4 := ⟨k - 4, by omega⟩
    rfl
  · exact ⟨_, .obj "Pair" [("a", .other "Num"), ("b", .other "Num")] 4 [1, 3] [num 1, num 2] _ [] [] [] [] (by rw [pairObjects]; simp) rfl
      (num_stored _ 1 1 5 rfl rfl (by decide) _ _ _ _ (num_stored _ 2 3 6 rfl rfl (by decide) _ _ _ _ .nil (by simp)) (by simp))
      .nil (by simp)⟩

/-! ### Arguments that contain the object -/

/-- `enum Tree { Leaf, Node(Vec<Tree>) }` -/
def cycleSchema : List ASTNode := [.enum ⟨"Tree", [.empty 0 "Leaf", .tuple 1 "Node" [⟨0, .generic "Vec" [.other "Tree"]⟩]]⟩]

theorem cycleSchema_accepted : Accepted cycleSchema :=
  ⟨[.kwEnum, .id "Tree", .sym '{', .id "Leaf", .sym ',', .id "Node", .sym '(', .id "Vec", .sym '<', .id "Tree", .sym '>', .sym ')',
    .sym '}', .eof], rfl⟩

theorem cycleSchema_named : DartNamed testExt cycleSchema where
  classes := by decide +kernel
  fields := by simp [cycleSchema]
  variants := by
    intro n hn
    simp only [cycleSchema, List.mem_singleton, ASTNode.enum.injEq] at hn
    subst hn
    decide +kernel
  payloads := by
    intro n hn i hi
    simp only [cycleSchema, List.mem_singleton, ASTNode.enum.injEq] at hn
    subst hn
    revert i
    decide +kernel
  plain := by decide +kernel
  lists := by decide +kernel
  structLib := by simp [cycleSchema]
  enumLib := by
    intro n hn i hi f hf
    simp only [cycleSchema, List.mem_singleton, ASTNode.enum.injEq] at hn
    subst hn
    simp only [List.mem_cons, List.not_mem_nil, or_false] at hi
    rcases hi with rfl | rfl
    · simp [payload] at hf
    · simp [payload] at hf
      subst hf
      simp [LibraryFree, variantClasses, cycleSchema]
      exact ⟨by decide +kernel, by decide +kernel⟩

theorem cycleObjects : dartObjects testExt (dartSchema cycleSchema)
    = [("Tree", [("value", .other "TreeValue"), ("leaf", .other "TreeLeaf"), ("node", .other "TreeNode")]), ("TreeLeaf", []),
      ("TreeNode", [("v0", .generic "Vec" [.other "Tree"])])] := by
  have h1 : testExt.camel "Leaf" = "leaf" ∧ testExt.camel "Node" = "node" := by decide +kernel
  have h2 : dartPayloadNames testExt (.tuple 1 "Node" [⟨0, .generic "Vec" [.other "Tree"]⟩]) = ["v0"] := by decide +kernel
  simp [dartObjects, cycleSchema, dartSchema, viewDecl, viewItem, viewTup, dartView, dartElem, EnumItem.id, payload, h1, h2]

/-- A leaf, the object 4, and the list `[leaf]`, the object 5. -/
def cycleHeap : Heap := [.val (.enum "TreeValue" "leaf" []), .obj "TreeLeaf" [], .list 0 [], .obj "TreeNode" [("v0", 2)],
  .obj "Tree" [("value", 0), ("leaf", 1), ("node", 3)], .list 1 [4]]

/-- The object as a value. -/
def leafObj : Val := .struct "Tree" [("value", .enum "TreeValue" "leaf" []), ("leaf", .struct "TreeLeaf" []),
  ("node", .struct "TreeNode" [("v0", .list 0 [])])]

/-- After `leaf.toNode([leaf])`. -/
def cycleAfter : Heap := [.val (.enum "TreeValue" "leaf" []), .obj "TreeLeaf" [], .list 0 [], .obj "TreeNode" [("v0", 5)],
  .obj "Tree" [("value", 6), ("leaf", 1), ("node", 3)], .list 1 [4], .val (.enum "TreeValue" "node" [])]

theorem cycle_enums : EnumsOk testExt cycleSchema := by
  intro n hn
  simp only [cycleSchema, List.mem_singleton, ASTNode.enum.injEq] at hn
  subst hn
  refine ⟨by decide +kernel, by decide +kernel, by decide +kernel, ?_, ?_, ?_, ?_, ?_, ?_⟩
  · unfold DartRules.MemberName DartRules.DartName; decide +kernel
  · unfold DartRules.Free; decide +kernel
  · unfold DartRules.Free; decide +kernel
  · simp [payload]
  · intro i hi p id vs he
    simp only [List.mem_cons, List.not_mem_nil, or_false] at hi
    rcases hi with rfl | rfl <;> cases he
    decide +kernel
  · unfold DartRules.Free; decide +kernel

theorem cycle_leaf {sep : Prop} : Stored sep testExt (dartSchema cycleSchema) cycleHeap [.other "Tree"] [4] [leafObj] [4, 0, 1, 3, 2] :=
  .obj "Tree" [("value", .other "TreeValue"), ("leaf", .other "TreeLeaf"), ("node", .other "TreeNode")] 4 [0, 1, 3]
    [.enum "TreeValue" "leaf" [], .struct "TreeLeaf" [], .struct "TreeNode" [("v0", .list 0 [])]] [0, 1, 3, 2] [] [] [] []
    (by rw [cycleObjects]; simp) rfl
    (.val _ 0 _ _ _ _ _ (by rw [cycleObjects]; simp) (by simp) rfl
      (.obj "TreeLeaf" [] 1 [] [] [] _ _ _ [3, 2] (by rw [cycleObjects]; simp) rfl .nil
        (.obj "TreeNode" [("v0", .generic "Vec" [.other "Tree"])] 3 [2] [.list 0 []] [2] [] [] [] [] (by rw [cycleObjects]; simp) rfl
          (.list (.other "Tree") 2 0 [] [] [] [] [] [] [] rfl .nil .nil (by simp)) .nil (by simp)) (by simp)) (by simp))
    .nil (by simp)

/-- No value is as deep as the object that contains itself. -/
theorem cycle_endless {sep : Prop} {ts : List TypeId} {rs : List Ref} {vs : List Val} {fp : List Ref}
    (hs : Stored sep testExt (dartSchema cycleSchema) cycleAfter ts rs vs fp) : ∀ r ∈ rs, r ≠ 3 ∧ r ≠ 4 ∧ r ≠ 5 := by
  induction hs with
  | nil => simp
  | val t r v ts rs vs g _ _ hr _ _ ih =>
    intro q hq
    rcases List.mem_cons.1 hq with rfl | hq
    · refine ⟨?_, ?_, ?_⟩ <;> rintro rfl <;> simp [cycleAfter] at hr
    · exact ih q hq
  | list e r n es is f ts rs vs g hr _ _ _ ih1 ih2 =>
    intro q hq
    rcases List.mem_cons.1 hq with rfl | hq
    · refine ⟨?_, ?_, ?_⟩ <;> rintro rfl <;> simp [cycleAfter, Cell.elems] at hr
      exact (ih1 4 (by simp [← hr.2])).2.1 rfl
    · exact ih2 q hq
  | obj cls fs r as is f ts rs vs g hm hr _ _ _ ih1 ih2 =>
    intro q hq
    rcases List.mem_cons.1 hq with rfl | hq
    · rw [cycleObjects] at hm
      simp only [List.mem_cons, Prod.mk.injEq, List.not_mem_nil, or_false] at hm
      refine ⟨?_, ?_, ?_⟩ <;> rintro rfl <;> simp only [cycleAfter, List.getElem?_cons_succ, List.getElem?_cons_zero,
        Option.some.injEq, Cell.obj.injEq, reduceCtorEq] at hr
      · have : (5 : Ref) ∈ as := (List.of_mem_zip (hr.2 ▸ (by simp : ("v0", (5 : Ref)) ∈ [("v0", 5)]))).2
        exact (ih1 5 this).2.2 rfl
      · have : (3 : Ref) ∈ as := (List.of_mem_zip (hr.2 ▸ (by simp : ("node", (3 : Ref)) ∈ [("value", 6), ("leaf", 1), ("node", 3)]))).2
        exact (ih1 3 this).1 rfl
    · exact ih2 q hq

theorem cycle_unwritten (rt : Dart.Runtime) : ∀ (k : Nat) (bs : Bytes),
    (∀ kd, Dart.hWriteC rt (Dart.genProg testExt cycleSchema) cycleAfter k (.plain kd "Tree") 4 ≠ .ok bs) ∧
    Dart.hWriteC rt (Dart.genProg testExt cycleSchema) cycleAfter k (.plain .emplace "TreeNode") 3 ≠ .ok bs ∧
    ∀ kd t, Dart.hWriteC rt (Dart.genProg testExt cycleSchema) cycleAfter k (.list kd t "Tree") 5 ≠ .ok bs
  | 0, bs => ⟨by simp [Dart.hWriteC], by simp [Dart.hWriteC], by simp [Dart.hWriteC]⟩
  | k + 1, bs => by
    have ih := cycle_unwritten rt k
    refine ⟨fun kd h => ?_, fun h => ?_, fun kd t h => ?_⟩
    · have e : Dart.hWriteC rt (Dart.genProg testExt cycleSchema) cycleAfter (k + 1) (.plain kd "Tree") 4
          = (Dart.orElse .throws (rt.writeP "Int32" (.int 1)) >>= fun b =>
            Dart.hWriteC rt (Dart.genProg testExt cycleSchema) cycleAfter k (.plain .emplace "TreeNode") 3 >>= fun bs => .ok (b ++ bs)) := by
        cases kd <;> rfl
      rw [e] at h
      obtain ⟨_, -, h⟩ := Dart.bind_ok h
      obtain ⟨bs', h, -⟩ := Dart.bind_ok h
      exact (ih bs').2.1 h
    · have e : Dart.hWriteC rt (Dart.genProg testExt cycleSchema) cycleAfter (k + 1) (.plain .emplace "TreeNode") 3
          = (Dart.hWriteC rt (Dart.genProg testExt cycleSchema) cycleAfter k (.list .emplace (.named "Tree") "Tree") 5 >>= fun b =>
            .ok (b ++ [])) := by
        rfl
      rw [e] at h
      obtain ⟨bs', h, -⟩ := Dart.bind_ok h
      exact (ih bs').2.2 _ _ h
    · have e : Dart.hWriteC rt (Dart.genProg testExt cycleSchema) cycleAfter (k + 1) (.list kd t "Tree") 5
          = (Dart.orElse .throws (rt.writeL 1) >>= fun b =>
            (Dart.hWriteC rt (Dart.genProg testExt cycleSchema) cycleAfter k (.plain .into "Tree") 4 >>= fun b => .ok (b ++ []))
              >>= fun bs => .ok (b ++ bs)) := by
        cases kd <;> rfl
      rw [e] at h
      obtain ⟨_, -, h⟩ := Dart.bind_ok h
      obtain ⟨_, h, -⟩ := Dart.bind_ok h
      obtain ⟨bs', h, -⟩ := Dart.bind_ok h
      exact (ih bs').1 _ h

/-- **C91, refuted for arguments that contain the object.** `leaf.toNode([leaf])` makes an object that contains itself:
it stands for no value, and writing it does not end, whatever the stack. -/
theorem C91_cycle :
    Accepted cycleSchema ∧ DartNamed testExt cycleSchema ∧ EnumsOk testExt cycleSchema ∧
    Dart.Emits testExt cycleSchema (Dart.genProg testExt cycleSchema) ∧
    (∃ fp, HoldsApart testExt cycleSchema (.other "Tree") cycleHeap 4 leafObj fp) ∧
    (∃ fp, HoldsApart testExt cycleSchema (.generic "Vec" [.other "Tree"]) cycleHeap 5 (.list 1 [leafObj]) fp) ∧
    ∃ h', Dart.hCallTo (Dart.genProg testExt cycleSchema) "Tree" "toNode" (.positional [5]) 4 cycleHeap = .ok h' ∧
      (∀ d fp, ¬ Holds testExt cycleSchema (.other "Tree") h' 4 d fp) ∧
      ∀ rt kd bs, ¬ Dart.HWrites rt (Dart.genProg testExt cycleSchema) kd (.other "Tree") h' 4 bs := by
  refine ⟨cycleSchema_accepted, cycleSchema_named, cycle_enums, Dart.emits_genProg cycleSchema_accepted, ⟨_, cycle_leaf⟩,
    ⟨_, .list (.other "Tree") 5 1 [4] [leafObj] _ [] [] [] [] rfl cycle_leaf .nil (by simp)⟩, cycleAfter, by rfl,
    fun d fp h => (cycle_endless h 4 (by simp)).2.1 rfl, fun rt kd bs ⟨N, h⟩ => ?_⟩
  cases kd
  · exact (cycle_unwritten rt N bs).1 .into (h N (Nat.le_refl N))
  · exact (cycle_unwritten rt N bs).1 .emplace (h N (Nat.le_refl N))

end TPB.Props
