/-
Property theorems about Dart objects in memory: C90.

`Dart.HReads`, `Dart.HCreates`, `Dart.HEmplaces` and `Dart.HWrites` run the emitted program with references to
objects that can be shared and changed (`Sem/DartHeap.lean`).  `Stored sep .. h [t] [o] [d] fp` says that in the
memory `h` the reference `o` of type `t` stands for the object `d` (seen as a value), that `fp` are the objects that
can be reached from it, and, if `sep` holds, that none of them can be reached in two ways (`Spec/DartHeap.lean`).
-/
import Verif.Proofs.DartHeapWrite
import Verif.Props.DartDefault
namespace TPB.Props
open Spec
open Dart (Ref Cell Heap Kind)

/-- In the memory `h` the reference `o` of type `t` stands for the object `d`, whose parts are the objects `fp`; they
may be shared. -/
def Holds (x : Ext) (S : List ASTNode) (t : TypeId) (h : Heap) (o : Ref) (d : Val) (fp : List Ref) : Prop :=
  Stored False x (dartSchema S) h [dartView t] [o] [d] fp

/-- The same, and no object can be reached in two ways from `o`. -/
def HoldsApart (x : Ext) (S : List ASTNode) (t : TypeId) (h : Heap) (o : Ref) (d : Val) (fp : List Ref) : Prop :=
  Stored True x (dartSchema S) h [dartView t] [o] [d] fp

theorem HoldsApart.holds {x : Ext} {S : List ASTNode} {t : TypeId} {h : Heap} {o : Ref} {d : Val} {fp : List Ref}
    (hs : HoldsApart x S t h o d fp) : Holds x S t h o d fp := Stored.weaken hs fun hf => hf.elim

/-- All objects of `h` are the same in `h'`, but for those in `fp`. -/
def OnlyChanges (fp : List Ref) (h h' : Heap) : Prop :=
  h.length ≤ h'.length ∧ ∀ q, q < h.length → q ∉ fp → h'[q]? = h[q]?

/-- **C90, writing** (partial) Both codecs write for an object in memory the bytes of the value that it stands for,
even if parts of the object are shared.
Missing: schemas whose names cannot be told apart in Dart or whose variant numbers do not fit in 31 bits. -/
theorem C90_write_partial (x : Ext) (rt : Dart.Runtime) (hrt : rt.Lawful) (S : List ASTNode) (hA : Accepted S)
    (hN : DartNamed x S) (hV : VariantsPlain S) (hP : ∀ n, .enum n ∈ S → ∀ i ∈ n.items, i.position < 2 ^ 31) :
    ∃ P, Dart.Emits x S P ∧ ∀ (t : TypeId), WFType t → LibraryFree S t → ∀ (v d : Val), DartValue rt S t v →
      Represents x S t v d → ∀ h o fp, Holds x S t h o d fp →
      ∃ bs, Enc rt.wire (dartSchema S) [dartView t] [v] bs ∧ ∀ kd, Dart.HWrites rt P kd t h o bs := by
  have hS := Dart.plain_of_accepted hA
  refine ⟨_, Dart.emits_genProg hA, fun t ht hf v d hv hd h o fp hs => ?_⟩
  obtain ⟨bs, he⟩ := Dart.hasTys_enc hrt hN hS.types hP hv [t] rfl (by simpa using Dart.sized_of_wf ht)
  refine ⟨bs, he, fun kd => ?_⟩
  obtain ⟨N, hw⟩ := Dart.enc_write_one hS hN hf he hd kd
  exact ⟨N, fun k hk => (Dart.sim_write hS hN hV N).1 kd t hf h o d fp hs bs (hw N (Nat.le_refl N)) k hk _⟩

/-- **C90, reading** (partial) Reading the bytes of a value makes new objects, none of which is shared, that stand for
the value; no object that existed before is changed.
Missing: the schemas excluded in C25. -/
theorem C90_read_partial (x : Ext) (rt : Dart.Runtime) (hrt : rt.Lawful) (hL : EmptyLists rt) (S : List ASTNode)
    (hA : Accepted S) (hN : DartNamed x S) (hV : VariantsPlain S) (hH : HasDefaults S) (hD : DistinctNumbers S) :
    ∃ P, Dart.Emits x S P ∧ ∀ (t : TypeId), LibraryFree S t → ∀ (v : Val) (bs : Bytes),
      Enc rt.wire (dartSchema S) [dartView t] [v] bs → ∀ (h : Heap) (r : Bytes), ∃ o h' d fp,
        Dart.HReads rt P t h (bs ++ r) o h' r ∧ Represents x S t v d ∧ HoldsApart x S t h' o d fp ∧
        OnlyChanges [] h h' ∧ ∀ q ∈ fp, h.length ≤ q := by
  have hS := Dart.plain_of_accepted hA
  refine ⟨_, Dart.emits_genProg hA, fun t hf v bs he h r => ?_⟩
  obtain ⟨d, hd, hr⟩ := (Dart.enc_read_one hrt hS hN hH hD hf he).1
  obtain ⟨N, hr⟩ := hr r
  obtain ⟨o, h', fp, r1, s1, g1⟩ := (Dart.sim_readers hS hN hV hL N).1 t hf h (bs ++ r) d r (hr N (Nat.le_refl N))
  exact ⟨o, h', d, fp, ⟨N, r1⟩, hd, s1, ⟨g1.len, g1.same⟩, g1.fresh⟩

/-- **C90, default objects** (partial) `createDefault()` makes new objects, none of which is shared, that stand for
the object of C89; no object that existed before is changed. -/
theorem C90_create_partial (x : Ext) (rt : Dart.Runtime) (hL : EmptyLists rt) (S : List ASTNode) (hA : Accepted S)
    (hN : DartNamed x S) (hV : VariantsPlain S) :
    ∃ P, Dart.Emits x S P ∧ ∀ id ∈ typeNames S, ∀ d, ReturnsDefault rt P id d → ∀ (h : Heap), ∃ o h' fp,
      Dart.HCreates rt P id h o h' ∧ HoldsApart x S (.other id) h' o d fp ∧ OnlyChanges [] h h' ∧
      ∀ q ∈ fp, h.length ≤ q := by
  have hS := Dart.plain_of_accepted hA
  refine ⟨_, Dart.emits_genProg hA, fun id hid d ⟨N, hd⟩ h => ?_⟩
  obtain ⟨o, h', fp, r1, s1, g1⟩ := (Dart.sim_new hS hN hV hL N).1 (.other id) (Dart.declared_free hN hid) h d
    (hd N (Nat.le_refl N))
  exact ⟨o, h', fp, ⟨N, r1⟩, s1, ⟨g1.len, g1.same⟩, g1.fresh⟩

/-- Reading in place, with the program of the proof. -/
theorem emplace_heap {x : Ext} {rt : Dart.Runtime} (hrt : rt.Lawful) (hL : EmptyLists rt) {S : List ASTNode}
    (hS : Dart.Plain S) (hN : DartNamed x S) (hV : VariantsPlain S) (hH : HasDefaults S) (hD : DistinctNumbers S) {id : String}
    (hid : id ∈ typeNames S) (hstr : id ≠ "String") {v : Val} {bs : Bytes}
    (he : Enc rt.wire (dartSchema S) [.other id] [v] bs) {h : Heap} {o : Ref} {old : Val} {fp : List Ref}
    (hs : HoldsApart x S (.other id) h o old fp) (r : Bytes) :
    ∃ h' d fp', Dart.HEmplaces rt (Dart.genProg x S) id o h (bs ++ r) h' r ∧ Represents x S (.other id) v d ∧
      HoldsApart x S (.other id) h' o d fp' ∧ OnlyChanges fp h h' ∧ ∀ q ∈ fp', q ∈ fp ∨ h.length ≤ q := by
  have hf := Dart.declared_free hN hid
  obtain ⟨d, hd, hr⟩ := (Dart.enc_read_one hrt hS hN hH hD (t := .other id) hf he).2 old (Dart.stored_dobj hN hs).1
  obtain ⟨N, hr⟩ := hr r
  obtain ⟨o', h', fp', r1, s1, g1, hc⟩ := (Dart.sim_readers hS hN hV hL N).2.1 (.other id) hf h o old fp hs (bs ++ r) d r
    (hr N (Nat.le_refl N))
  have hinto : ∀ a, Dart.genReadEmplace (.other id) a = .into (.plain .emplace id) a := by
    intro a; simp only [Dart.genReadEmplace, if_neg hstr]
  rcases hc with ⟨e, hc⟩ | ⟨-, rfl⟩
  · have := hc (.var "model")
    rw [hinto] at this
    simp at this
  · refine ⟨h', d, fp', ⟨N, fun k hk => ?_⟩, hd, s1, ⟨g1.len, g1.same⟩, g1.new⟩
    have := r1 k hk (.var "model")
    rw [hinto, Dart.hEmplS] at this
    obtain ⟨⟨h2, r2⟩, e1, e2⟩ := Dart.bind_ok this
    simp only [Except.ok.injEq, Prod.mk.injEq, true_and] at e2
    rw [e1, e2.1, e2.2]

/-- **C90, reading in place** (partial) Reading the bytes of a value into an object none of whose parts is shared makes
this same object stand for the value, and its parts are not shared afterwards either.  Only the object and what could
be reached from it are changed; what can be reached afterwards could be reached before or is new.
Missing: the schemas excluded in C26; objects with shared parts, see `C90_shared`. -/
theorem C90_emplace_partial (x : Ext) (rt : Dart.Runtime) (hrt : rt.Lawful) (hL : EmptyLists rt) (S : List ASTNode)
    (hA : Accepted S) (hN : DartNamed x S) (hV : VariantsPlain S) (hH : HasDefaults S) (hD : DistinctNumbers S) :
    ∃ P, Dart.Emits x S P ∧ ∀ id ∈ typeNames S, id ≠ "String" → ∀ (v : Val) (bs : Bytes),
      Enc rt.wire (dartSchema S) [.other id] [v] bs → ∀ h o old fp, HoldsApart x S (.other id) h o old fp →
      ∀ r, ∃ h' d fp', Dart.HEmplaces rt P id o h (bs ++ r) h' r ∧ Represents x S (.other id) v d ∧
        HoldsApart x S (.other id) h' o d fp' ∧ OnlyChanges fp h h' ∧ ∀ q ∈ fp', q ∈ fp ∨ h.length ≤ q := by
  exact ⟨_, Dart.emits_genProg hA, fun id hid hstr v bs he h o old fp hs r =>
    emplace_heap hrt hL (Dart.plain_of_accepted hA) hN hV hH hD hid hstr he hs r⟩

/-- Objects that share nothing with the changed one stand for the same objects afterwards. -/
theorem C90_others_keep (x : Ext) (S : List ASTNode) (t : TypeId) (h h' : Heap) (fp gp : List Ref) (o : Ref) (d : Val)
    (hc : OnlyChanges fp h h') (hs : Holds x S t h o d gp) (hd : ∀ q ∈ gp, q ∉ fp) : Holds x S t h' o d gp :=
  Stored.frame hs fun q hq => hc.2 q (Stored.lt hs q hq) (hd q hq)

/-- **C90, sent in place** (partial) What one program writes for an object in memory, shared or not, another reads in
place into any object without shared parts; the object then stands for the same value, and writing it again, with
either codec, gives the same bytes. -/
theorem C90_sent_partial (x : Ext) (rt : Dart.Runtime) (hrt : rt.Lawful) (hL : EmptyLists rt) (S : List ASTNode)
    (hA : Accepted S) (hN : DartNamed x S) (hV : VariantsPlain S) (hH : HasDefaults S) (hD : DistinctNumbers S)
    (hP : ∀ n, .enum n ∈ S → ∀ i ∈ n.items, i.position < 2 ^ 31) :
    ∃ P, Dart.Emits x S P ∧ ∀ id ∈ typeNames S, id ≠ "String" → ∀ (v d : Val), DartValue rt S (.other id) v →
      Represents x S (.other id) v d → ∀ h o fp, Holds x S (.other id) h o d fp →
      ∀ h2 o2 old fp2, HoldsApart x S (.other id) h2 o2 old fp2 → ∃ bs h3 d3 fp3, (∀ kd, Dart.HWrites rt P kd (.other id) h o bs) ∧
        Dart.HEmplaces rt P id o2 h2 bs h3 [] ∧ HoldsApart x S (.other id) h3 o2 d3 fp3 ∧ Represents x S (.other id) v d3 ∧
        ∀ kd, Dart.HWrites rt P kd (.other id) h3 o2 bs := by
  have hS := Dart.plain_of_accepted hA
  refine ⟨_, Dart.emits_genProg hA, fun id hid hstr v d hv hd h o fp hs h2 o2 old fp2 hs2 => ?_⟩
  have hf := Dart.declared_free hN hid
  obtain ⟨bs, hb⟩ := Dart.hasTys_enc hrt hN hS.types hP hv [.other id] rfl (by simp [Dart.Sized])
  have wr : ∀ h o fp d, Represents x S (.other id) v d → Holds x S (.other id) h o d fp →
      ∀ kd, Dart.HWrites rt (Dart.genProg x S) kd (.other id) h o bs := by
    intro h o fp d hd hs kd
    obtain ⟨N, hw⟩ := Dart.enc_write_one (t := .other id) hS hN hf hb hd kd
    exact ⟨N, fun k hk => (Dart.sim_write hS hN hV N).1 kd (.other id) hf h o d fp hs bs (hw N (Nat.le_refl N)) k hk _⟩
  obtain ⟨h3, d3, fp3, h4, h5, h6, -, -⟩ := emplace_heap hrt hL hS hN hV hH hD hid hstr hb hs2 []
  rw [List.append_nil] at h4
  exact ⟨bs, h3, d3, fp3, wr h o fp d hd hs, h4, h6, h5, wr h3 o2 fp3 d3 h5 (HoldsApart.holds h6)⟩

/-! ### Examples -/

theorem dartExample_plain : VariantsPlain dartExample := by
  show ∀ c ∈ variantClasses dartExample, _
  decide +kernel

/-- Non-vacuity: the example value is read into an empty memory, and another one is read in place
into the same object. -/
example : ∃ P bs bs' h o d fp h' d' fp', Dart.Emits testExt dartExample P ∧
    Enc listRuntime.wire (dartSchema dartExample) [.other "Shape"] [dRect] bs ∧
    Dart.HReads listRuntime P (.other "Shape") [] bs o h [] ∧ HoldsApart testExt dartExample (.other "Shape") h o d fp ∧
    Dart.HEmplaces listRuntime P "Shape" o h bs' h' [] ∧ HoldsApart testExt dartExample (.other "Shape") h' o d' fp' ∧
    Represents testExt dartExample (.other "Shape") (.enum "Shape" "None" []) d' ∧ d ≠ d' := by
  have hS := Dart.plain_of_accepted dartExample_accepted
  have hn : HasTy listRuntime.wire (dartSchema dartExample) (.other "Shape") (.enum "Shape" "None" []) :=
    .enum ⟨"Shape", [.empty 3 "None", .tuple 7 "Circle" [⟨0, .other "Point"⟩, ⟨1, .number "Double" 8⟩],
      .struct 1 "Rect" [⟨0, "a", .other "Point"⟩, ⟨1, "b", .bool "Bool"⟩]]⟩ (.empty 3 "None") [] [] []
      (by simp [dartExample, dartSchema, viewDecl, viewItem, viewField, viewTup, dartView, dartPrim]) (by simp) .nil .nil
  have hw : listRuntime.wire = LE.dart.wire := rfl
  obtain ⟨bs, he⟩ := Dart.hasTys_enc listRuntime_lawful dartExample_named hS.types dartExample_numbers
    (by rw [hw]; exact dRect_hasTy) [.other "Shape"] rfl (by simp [Dart.Sized])
  obtain ⟨bs', he'⟩ := Dart.hasTys_enc listRuntime_lawful dartExample_named hS.types dartExample_numbers hn
    [.other "Shape"] rfl (by simp [Dart.Sized])
  obtain ⟨d, hd, hr⟩ := (Dart.enc_read_one listRuntime_lawful hS dartExample_named dartExample_defaults
    dartExample_distinct dartExample_free he).1
  obtain ⟨N, hr⟩ := hr []
  obtain ⟨o, h, fp, r1, s1, -⟩ := (Dart.sim_readers hS dartExample_named dartExample_plain listRuntime_empty N).1
    (.other "Shape") dartExample_free [] (bs ++ []) d [] (hr N (Nat.le_refl N))
  obtain ⟨h', d', fp', r2, s2, s3, -⟩ := emplace_heap listRuntime_lawful listRuntime_empty hS dartExample_named
    dartExample_plain dartExample_defaults dartExample_distinct (id := "Shape") (by decide) (by decide) he' s1 []
  refine ⟨_, bs, bs', h, o, d, fp, h', d', fp', Dart.emits_genProg dartExample_accepted, he, ⟨N, ?_⟩, s1, ?_, s3, s2, ?_⟩
  · simpa using r1
  · simpa using r2
  · rintro rfl
    have := C25_object_represents_one_value testExt dartExample dartExample_named (.other "Shape") _ _ d hd s2
    simp [dRect] at this

/-! ### Shared parts -/

/-- `struct Num { v: i32 }  struct Pair { a: Num, b: Num }` -/
def pairSchema : List ASTNode :=
  [.struct ⟨"Num", [⟨0, "v", .integer "i32" 4 true⟩], true, true⟩,
   .struct ⟨"Pair", [⟨0, "a", .other "Num"⟩, ⟨1, "b", .other "Num"⟩], true, true⟩]

theorem pairSchema_accepted : Accepted pairSchema := by
  have h1 : WFType (.integer "i32" 4 true) := .name "i32"
  have h2 : WFType (.other "Num") := .name "Num"
  obtain ⟨ts, _, h⟩ := C09_every_schema pairSchema
    ⟨⟨⟨.inl rfl, by simpa using h1⟩, rfl, rfl⟩, ⟨⟨.inl rfl, by simpa using h2⟩, rfl, rfl⟩, trivial⟩
  exact ⟨_, h⟩

theorem pairSchema_named : DartNamed testExt pairSchema where
  classes := by decide +kernel
  fields := by simp [pairSchema, dartFieldNames]; decide +kernel
  variants := by simp [pairSchema]
  payloads := by simp [pairSchema]
  plain := by decide +kernel
  lists := by decide +kernel
  structLib := by simp [pairSchema, fieldsOf, LibraryFree, variantClasses]
  enumLib := by simp [pairSchema]

/-- `Num { v: x }` and `Pair { a: Num { v: x }, b: Num { v: y } }` -/
def num (x : Int) : Val := .struct "Num" [("v", .int x)]
def pair (x y : Int) : Val := .struct "Pair" [("a", num x), ("b", num y)]

/-- `final n = Num(v: z); Pair(a: n, b: n)`: the pair is the object 2, and both fields refer to the object 1. -/
def sharedPair (z : Int) : Heap := [.val (.int z), .obj "Num" [("v", 0)], .obj "Pair" [("a", 1), ("b", 1)]]

theorem pair_represents (x y : Int) : Represents testExt pairSchema (.other "Pair") (pair x y) (pair x y) := by
  have hnum : ∀ z : Int, ∀ ts vs ds, DRep testExt (dartSchema pairSchema) ts vs ds →
      DRep testExt (dartSchema pairSchema) (.other "Num" :: ts) (num z :: vs) (num z :: ds) := by
    intro z ts vs ds h
    have hc : testExt.camel "v" = "v" := by decide +kernel
    have := DRep.struct (x := testExt) (T := dartSchema pairSchema) ⟨"Num", [⟨0, "v", .integer "Int32" 4 true⟩], true, true⟩
      [.int z] [.int z] ts vs ds (by simp [pairSchema, dartSchema, viewDecl, viewField, dartView, dartPrim])
      (.leaf _ _ _ _ _ rfl .nil) h
    simpa [num, dartFieldNames, named, fieldsOf, hc] using this
  have hc : testExt.camel "a" = "a" ∧ testExt.camel "b" = "b" := by decide +kernel
  have := DRep.struct (x := testExt) (T := dartSchema pairSchema) ⟨"Pair", [⟨0, "a", .other "Num"⟩, ⟨1, "b", .other "Num"⟩], true, true⟩
    [num x, num y] [num x, num y] [] [] [] (by simp [pairSchema, dartSchema, viewDecl, viewField, dartView])
    (hnum x _ _ _ (hnum y _ _ _ .nil)) .nil
  simpa [Represents, dartView, pair, dartFieldNames, named, fieldsOf, hc.1, hc.2] using this

theorem sharedPair_holds (h : Heap) (z : Int) (t : Ref) (h1 : h[1]? = some (.obj "Num" [("v", t)]))
    (h2 : h[2]? = some (.obj "Pair" [("a", 1), ("b", 1)])) (ht : h[t]? = some (.val (.int z))) :
    ∃ fp, Holds testExt pairSchema (.other "Pair") h 2 (pair z z) fp := by
  have hc : testExt.camel "v" = "v" ∧ testExt.camel "a" = "a" ∧ testExt.camel "b" = "b" := by decide +kernel
  have hd : dartObjects testExt (dartSchema pairSchema)
      = [("Num", [("v", .integer "Int32" 4 true)]), ("Pair", [("a", .other "Num"), ("b", .other "Num")])] := by
    simp [dartObjects, pairSchema, dartSchema, viewDecl, viewField, dartView, dartPrim, dartFieldNames, fieldsOf, hc.1, hc.2.1, hc.2.2]
  have hnum : ∀ ts rs vs g, Stored False testExt (dartSchema pairSchema) h ts rs vs g →
      Stored False testExt (dartSchema pairSchema) h (.other "Num" :: ts) (1 :: rs) (num z :: vs) (1 :: ([t] ++ g)) :=
    fun ts rs vs g hg => .obj "Num" [("v", .integer "Int32" 4 true)] 1 [t] [.int z] [t] ts rs vs g (by rw [hd]; simp) h1
      (.val _ _ _ _ _ _ _ (by simp) (by simp) ht .nil (by simp)) hg (fun h => h.elim)
  exact ⟨_, .obj "Pair" [("a", .other "Num"), ("b", .other "Num")] 2 [1, 1] [num z, num z] _ [] [] [] [] (by rw [hd]; simp) h2
    (hnum _ _ _ _ (hnum _ _ _ _ .nil)) .nil (fun h => h.elim)⟩

/-- **C90, refuted for shared parts.** Let both fields of a `Pair` refer to one object.  Reading the bytes of
`Pair { a: 1, b: 2 }` in place leaves a pair that stands for `Pair { a: 2, b: 2 }`: the second field overwrites the
first. -/
theorem C90_shared :
    Accepted pairSchema ∧ DartNamed testExt pairSchema ∧
    Dart.Emits testExt pairSchema (Dart.genProg testExt pairSchema) ∧
    (∃ fp, Holds testExt pairSchema (.other "Pair") (sharedPair 0) 2 (pair 0 0) fp) ∧
    ∃ bs h', Enc LE.dart.wire (dartSchema pairSchema) [.other "Pair"] [pair 1 2] bs ∧
      Dart.HEmplaces LE.dart (Dart.genProg testExt pairSchema) "Pair" 2 (sharedPair 0) bs h' [] ∧
      (∃ fp, Holds testExt pairSchema (.other "Pair") h' 2 (pair 2 2) fp) ∧
      ¬ Represents testExt pairSchema (.other "Pair") (pair 1 2) (pair 2 2) := by
  refine ⟨pairSchema_accepted, pairSchema_named, Dart.emits_genProg pairSchema_accepted,
    sharedPair_holds _ 0 0 rfl rfl rfl, [1, 0, 0, 0, 2, 0, 0, 0],
    [.val (.int 0), .obj "Num" [("v", 4)], .obj "Pair" [("a", 1), ("b", 1)], .val (.int 1), .val (.int 2)], ?_, ⟨4, fun k hk => ?_⟩,
    sharedPair_holds _ 2 4 rfl rfl rfl, fun h => ?_⟩
  · have hnum : ∀ (z : Int) (b : Bytes), LE.dart.wire.prim "Int32" (.int z) = some b → ∀ ts vs bs,
        Enc LE.dart.wire (dartSchema pairSchema) ts vs bs →
        Enc LE.dart.wire (dartSchema pairSchema) (.other "Num" :: ts) (num z :: vs) (b ++ bs) := by
      intro z b hb ts vs bs h
      have := Enc.struct (W := LE.dart.wire) (S := dartSchema pairSchema) ⟨"Num", [⟨0, "v", .integer "Int32" 4 true⟩], true, true⟩
        [.int z] b ts vs bs (by simp [pairSchema, dartSchema, viewDecl, viewField, dartView, dartPrim])
        (by simpa [fieldsOf] using Enc.leaf (W := LE.dart.wire) (S := dartSchema pairSchema) (.integer "Int32" 4 true) "Int32" (.int z) b [] [] [] rfl hb .nil) h
      exact this
    exact Enc.struct (W := LE.dart.wire) (S := dartSchema pairSchema)
      ⟨"Pair", [⟨0, "a", .other "Num"⟩, ⟨1, "b", .other "Num"⟩], true, true⟩ [num 1, num 2] [1, 0, 0, 0, 2, 0, 0, 0] [] [] []
      (by simp [pairSchema, dartSchema, viewDecl, viewField, dartView])
      (hnum 1 [1, 0, 0, 0] rfl _ _ [2, 0, 0, 0] (hnum 2 [2, 0, 0, 0] rfl _ _ [] .nil)) .nil
  · obtain ⟨k, rfl⟩ : ∃ j, k = j + 4 := ⟨k - 4, by omega⟩
    rfl
  · have := C25_object_represents_one_value testExt pairSchema pairSchema_named (.other "Pair") _ _ _ h (pair_represents 2 2)
    simp [pair, num] at this

/-- Non-vacuity of writing: the pair with a shared part is written with both parts. -/
example : ∃ P bs, Dart.Emits testExt pairSchema P ∧ Enc LE.dart.wire (dartSchema pairSchema) [.other "Pair"] [pair 7 7] bs ∧
    ∀ kd, Dart.HWrites LE.dart P kd (.other "Pair") (sharedPair 7) 2 bs := by
  obtain ⟨P, hP, h⟩ := C90_write_partial testExt LE.dart LE.dart_lawful pairSchema pairSchema_accepted pairSchema_named
    (by simp [VariantsPlain, variantClasses, pairSchema]) (by simp [pairSchema])
  obtain ⟨fp, hs⟩ := sharedPair_holds (sharedPair 7) 7 0 rfl rfl rfl
  have hnum : ∀ ts vs, HasTys LE.dart.wire (dartSchema pairSchema) ts vs →
      HasTys LE.dart.wire (dartSchema pairSchema) (.other "Num" :: ts) (num 7 :: vs) := fun ts vs h =>
    .struct ⟨"Num", [⟨0, "v", .integer "Int32" 4 true⟩], true, true⟩ [.int 7] _ _
      (by simp [pairSchema, dartSchema, viewDecl, viewField, dartView, dartPrim])
      (.leaf _ _ _ _ (by show -(2 ^ (8 * 4 - 1) : Int) ≤ 7 ∧ (7 : Int) < 2 ^ (8 * 4 - 1); decide) .nil) h
  have hv : DartValue LE.dart pairSchema (.other "Pair") (pair 7 7) :=
    .struct ⟨"Pair", [⟨0, "a", .other "Num"⟩, ⟨1, "b", .other "Num"⟩], true, true⟩ [num 7, num 7] _ _
      (by simp [pairSchema, dartSchema, viewDecl, viewField, dartView]) (hnum _ _ (hnum _ _ .nil)) .nil
  obtain ⟨bs, h1, h2⟩ := h (.other "Pair") (.name "Pair") (by simp [LibraryFree, variantClasses, pairSchema]) _ _ hv
    (pair_represents 7 7) _ _ _ hs
  exact ⟨P, bs, hP, h1, h2⟩

end TPB.Props
