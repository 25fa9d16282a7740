/-
Property theorems about fields and arguments that are appended: C95.
-/
import Verif.Props.RpcRenaming
import Verif.Spec.Appending
namespace TPB.Props
open Spec Renaming
open Rust (RetIs Buf Bufs BufLib User setMem codecAt)
open Rpc

theorem hasTys_split {W : Wire} {S : List ASTNode} {ts us : List TypeId} : ∀ {vs : List Val}, HasTys W S (ts ++ us) vs →
    ∃ v1 v2, vs = v1 ++ v2 ∧ HasTys W S ts v1 ∧ HasTys W S us v2 := by
  induction ts with
  | nil => exact fun {vs} h => ⟨[], vs, rfl, .nil, h⟩
  | cons t ts ih =>
    intro vs h
    rw [List.cons_append] at h
    cases h with
    | leaf _ v _ vs hv h =>
      obtain ⟨v1, v2, rfl, h1, h2⟩ := ih h
      exact ⟨v :: v1, v2, rfl, .leaf _ _ _ _ hv h1, h2⟩
    | struct n fvs _ vs hn hf h =>
      obtain ⟨v1, v2, rfl, h1, h2⟩ := ih h
      exact ⟨_ :: v1, v2, rfl, .struct _ _ _ _ hn hf h1, h2⟩
    | enum n i pvs _ vs hn hi hp h =>
      obtain ⟨v1, v2, rfl, h1, h2⟩ := ih h
      exact ⟨_ :: v1, v2, rfl, .enum _ _ _ _ _ hn hi hp h1, h2⟩
    | list c gs shape its items _ vs hh hp hi h =>
      obtain ⟨v1, v2, rfl, h1, h2⟩ := ih h
      exact ⟨_ :: v1, v2, rfl, .list _ _ _ _ _ _ _ hh hp hi h1, h2⟩
    | ext id v _ vs hid hv h =>
      obtain ⟨v1, v2, rfl, h1, h2⟩ := ih h
      exact ⟨_ :: v1, v2, rfl, .ext _ _ _ _ hid hv h1, h2⟩

theorem hasTys_len {W : Wire} {S : List ASTNode} {ts : List TypeId} {vs : List Val} (h : HasTys W S ts vs) : ts.length = vs.length := by
  induction h <;> simp [*]

theorem enc_split {W : Wire} {S : List ASTNode} {ts us : List TypeId} {v2 : List Val} : ∀ {v1 : List Val} {bs : Bytes},
    ts.length = v1.length → Enc W S (ts ++ us) (v1 ++ v2) bs → ∃ b1 b2, bs = b1 ++ b2 ∧ Enc W S ts v1 b1 ∧ Enc W S us v2 b2 := by
  induction ts with
  | nil =>
    intro v1 bs hl h
    match v1, hl with
    | [], _ => exact ⟨[], bs, rfl, .nil, h⟩
  | cons t ts ih =>
    intro v1 bs hl h
    match v1, hl with
    | v :: v1, hl =>
      rw [List.cons_append, List.cons_append] at h
      have hl' : ts.length = v1.length := by simpa using hl
      cases h with
      | leaf _ p _ b _ _ bs hp hb h =>
        obtain ⟨b1, b2, rfl, h1, h2⟩ := ih hl' h
        exact ⟨b ++ b1, b2, by simp, .leaf _ _ _ _ _ _ _ hp hb h1, h2⟩
      | struct n fvs b _ _ bs hn hf h =>
        obtain ⟨b1, b2, rfl, h1, h2⟩ := ih hl' h
        exact ⟨b ++ b1, b2, by simp, .struct _ _ _ _ _ _ hn hf h1, h2⟩
      | enum n i tag pvs b _ _ bs hn hi ht hp h =>
        obtain ⟨b1, b2, rfl, h1, h2⟩ := ih hl' h
        exact ⟨tag ++ b ++ b1, b2, by simp, .enum _ _ _ _ _ _ _ _ hn hi ht hp h1, h2⟩
      | list c gs shape hd its items b _ _ bs hh hp hi h =>
        obtain ⟨b1, b2, rfl, h1, h2⟩ := ih hl' h
        exact ⟨hd ++ b ++ b1, b2, by simp, .list _ _ _ _ _ _ _ _ _ _ hh hp hi h1, h2⟩
      | ext id _ b _ _ bs hid hb h =>
        obtain ⟨b1, b2, rfl, h1, h2⟩ := ih hl' h
        exact ⟨b ++ b1, b2, by simp, .ext _ _ _ _ _ _ hid hb h1, h2⟩

theorem enc_struct {W : Wire} {S : List ASTNode} {n : StructNode} {fvs : List Val} {b : Bytes} (hn : .struct n ∈ S)
    (h : Enc W S ((fieldsOf n).map (·.2)) fvs b) : Enc W S [.other n.id] [.struct n.id (named (fieldsOf n) fvs)] b := by
  simpa using Enc.struct n fvs b [] [] [] hn h .nil

theorem wf_declared {S : List ASTNode} (hN : WellNamed S) {id : String} (h : id ∈ typeNames S) : WFType (.other id) := by
  have := WFType.name id
  rwa [show typeOfName id = .other id by unfold typeOfName; rw [hN.builtins id h]; rfl] at this

theorem declared_struct {S : List ASTNode} {n : StructNode} (h : .struct n ∈ S) : n.id ∈ typeNames S :=
  List.mem_filterMap.2 ⟨_, h, rfl⟩

/-! ## C95, structs -/

/-- **C95, fields in Rust.** The struct `n` of `S` is the struct `n'` of `S'` with further fields at the end.  What the code
of `S` writes for a value of `n` begins with what the code of `S'` writes for the value without these fields, so the
code of `S'` reads it as that value, and stops before the bytes of the further fields.  The code of `S`, given what the
code of `S'` has written, takes the further fields from whatever bytes follow. -/
theorem C95_rust (rt : Rust.Runtime) (hrt : rt.Lawful) (M : String → String → Prop) (S S' : List ASTNode) (hA : Accepted S)
    (hA' : Accepted S') (hN : WellNamed S) (hN' : WellNamed S') (hW : Rust.NoWriterClash S) (hW' : Rust.NoWriterClash S')
    (hD : DistinctNumbers S) (hD' : DistinctNumbers S') (hS : SameShape M S S') :
    ∃ P P', Rust.Emits S P ∧ Rust.Emits S' P' ∧ ∀ n n' ts es, .struct n ∈ S → .struct n' ∈ S' → MoreFields M S S' n n' ts es →
      ∀ vs us, HasTys rt.wire S ts vs → HasTys rt.wire S es us →
      ∃ vs' b e, SameVals rt.wire M S S' ts ((fieldsOf n').map (·.2)) vs vs' ∧
        Rust.Writes rt P (.other n.id) (.struct n.id (named (fieldsOf n) (vs ++ us))) (b ++ e) ∧
        Rust.Writes rt P' (.other n'.id) (.struct n'.id (named (fieldsOf n') vs')) b ∧
        (∀ r, Rust.Reads rt P' (.other n'.id) (b ++ e ++ r) (.struct n'.id (named (fieldsOf n') vs')) (e ++ r)) ∧
        ∀ r, Rust.Reads rt P (.other n.id) (b ++ (e ++ r)) (.struct n.id (named (fieldsOf n) (vs ++ us))) r := by
  refine ⟨_, _, emits_genProg S hA, emits_genProg S' hA', fun n n' ts es hn hn' hm vs us hv hu => ?_⟩
  obtain ⟨vs', hs⟩ := same_total hS hv _ hm.same
  have hwf : ∀ t ∈ ts ++ es, WFType t := by
    rw [← hm.types]
    intro t ht
    obtain ⟨f, hf, rfl⟩ := List.mem_map.1 ht
    exact (Rust.typesOk_of_wf hA.wf).1 n hn f hf
  obtain ⟨b, h1, h2⟩ := same_enc (total_rust hrt.wire hN (Rust.typesOk_of_wf hA.wf)) hs (fun t ht => hwf t (by simp [ht]))
  obtain ⟨e, h3⟩ := Rust.hasTys_enc hrt.wire hN (Rust.typesOk_of_wf hA.wf) hu (fun t ht => hwf t (by simp [ht]))
  have h4 : Enc rt.wire S ((fieldsOf n).map (·.2)) (vs ++ us) (b ++ e) := by
    rw [hm.types]
    exact Enc.append h1 h3
  have hw := wf_declared hN (declared_struct hn)
  have hw' := wf_declared hN' (declared_struct hn')
  exact ⟨vs', b, e, hs, enc_writes hA hN hW hw (enc_struct hn h4), enc_writes hA' hN' hW' hw' (enc_struct hn' h2),
    fun r => by simpa using enc_reads hrt hA' hN' hD' hw' (enc_struct hn' h2) (e ++ r),
    fun r => by simpa using enc_reads hrt hA hN hD hw (enc_struct hn h4) r⟩

theorem sameTys_mapView {M : String → String → Prop} {x : Ext} {S S' : List ASTNode} (hN : DartNamed x S) (hN' : DartNamed x S')
    {ts ts' : List TypeId} (h : SameTys M S S' ts ts') (hp : ∀ t ∈ ts, Renamable S S' t) :
    SameTys M (dartSchema S) (dartSchema S') (ts.map dartView) (ts'.map dartView) := by
  refine ⟨by simpa using h.1, fun i hi hi' => ?_⟩
  have := h.2 i (by simpa using hi) (by simpa using hi')
  simp only [List.getElem_map] at this ⊢
  exact sameTy_view hN hN' this (hp _ (List.getElem_mem _))

theorem enc_dart_struct {W : Wire} {S : List ASTNode} {n : StructNode} {fvs : List Val} {b : Bytes} (hn : .struct n ∈ S)
    (h : Enc W (dartSchema S) (((fieldsOf n).map (·.2)).map dartView) fvs b) :
    Enc W (dartSchema S) [dartView (.other n.id)] [.struct n.id (named (fieldsOf n) fvs)] b := by
  have := enc_struct (n := { n with fields := n.fields.map viewField }) (List.mem_map.2 ⟨_, hn, rfl⟩) (W := W) (fvs := fvs) (b := b)
    (by rw [fieldsOf_view]; simpa [Function.comp_def, dartSchema] using h)
  rw [fieldsOf_view] at this
  simpa [named, Function.comp_def, dartSchema, dartView] using this

/-- **C95, fields in Dart.** The same for the code generated for Dart, for fields whose types Dart tells apart in the same
way in both schemas. -/
theorem C95_dart (x : Ext) (rt : Dart.Runtime) (hrt : rt.Lawful) (M : String → String → Prop) (S S' : List ASTNode)
    (hR : DartReady x S) (hR' : DartReady x S') (hP : RenamableSchema S S') (hS : SameShape M S S') :
    ∃ P P', Dart.Emits x S P ∧ Dart.Emits x S' P' ∧ ∀ n n' ts es, .struct n ∈ S → .struct n' ∈ S' → MoreFields M S S' n n' ts es →
      LibraryFree S (.other n.id) → LibraryFree S' (.other n'.id) → ∀ vs us, HasTys rt.wire (dartSchema S) (ts.map dartView) vs →
      HasTys rt.wire (dartSchema S) (es.map dartView) us →
      ∃ vs' b e, SameVals rt.wire M (dartSchema S) (dartSchema S') (ts.map dartView) (((fieldsOf n').map (·.2)).map dartView) vs vs' ∧
        (∀ kd d, Represents x S (.other n.id) (.struct n.id (named (fieldsOf n) (vs ++ us))) d →
          Dart.Writes rt P kd (.other n.id) d (b ++ e)) ∧
        (∀ kd d, Represents x S' (.other n'.id) (.struct n'.id (named (fieldsOf n') vs')) d → Dart.Writes rt P' kd (.other n'.id) d b) ∧
        (∃ d, Represents x S' (.other n'.id) (.struct n'.id (named (fieldsOf n') vs')) d ∧
          ∀ r, Dart.Reads rt P' (.other n'.id) (b ++ e ++ r) d (e ++ r)) ∧
        ∃ d, Represents x S (.other n.id) (.struct n.id (named (fieldsOf n) (vs ++ us))) d ∧
          ∀ r, Dart.Reads rt P (.other n.id) (b ++ (e ++ r)) d r := by
  have p1 := Dart.plain_of_accepted hR.accepted
  have p2 := Dart.plain_of_accepted hR'.accepted
  refine ⟨_, _, Dart.emits_genProg hR.accepted, Dart.emits_genProg hR'.accepted, fun n n' ts es hn hn' hm hf hf' vs us hv hu => ?_⟩
  have hty : ∀ t ∈ ts ++ es, ∃ f ∈ fieldsOf n, f.2 = t := by
    rw [← hm.types]
    exact fun t ht => List.mem_map.1 ht
  have hsz : ∀ t ∈ ts ++ es, Dart.Sized t := fun t ht => by
    obtain ⟨f, hf, rfl⟩ := hty t ht
    exact Dart.sized_of_wf ((Rust.typesOk_of_wf hR.accepted.wf).1 n hn f hf)
  have hrn : ∀ t ∈ ts, Renamable S S' t := fun t ht => by
    obtain ⟨f, hf, rfl⟩ := hty t (by simp [ht])
    exact hP.fields n hn f hf
  obtain ⟨vs', hs⟩ := same_total (sameShape_view hR.named hR'.named hS hP) hv _ (sameTys_mapView hR.named hR'.named hm.same hrn)
  obtain ⟨b, h1, h2⟩ := same_enc (total_dart hrt (Rust.typesOk_of_wf hR.accepted.wf) hR.numbers) hs (fun t ht => by
    obtain ⟨t0, h0, rfl⟩ := List.mem_map.1 ht
    exact ⟨t0, rfl, hsz t0 (by simp [h0])⟩)
  obtain ⟨e, h3⟩ := Dart.hasTys_enc hrt hR.named p1.types hR.numbers hu es rfl (fun t ht => hsz t (by simp [ht]))
  have h4 : Enc rt.wire (dartSchema S) (((fieldsOf n).map (·.2)).map dartView) (vs ++ us) (b ++ e) := by
    rw [hm.types, List.map_append]
    exact Enc.append h1 h3
  have e1 := enc_dart_struct hn h4
  have e2 := enc_dart_struct hn' h2
  obtain ⟨d', hd', hr'⟩ := (Dart.enc_read_one hrt p2 hR'.named hR'.defaults hR'.distinct hf' e2).1
  obtain ⟨d, hd, hr⟩ := (Dart.enc_read_one hrt p1 hR.named hR.defaults hR.distinct hf e1).1
  exact ⟨vs', b, e, hs, fun kd d hd => Dart.enc_write_one p1 hR.named hf e1 hd kd,
    fun kd d hd => Dart.enc_write_one p2 hR'.named hf' e2 hd kd,
    ⟨d', hd', fun r => by simpa using hr' (e ++ r)⟩, d, hd, fun r => by simpa using hr r⟩

/-! ## C95, further arguments -/

section
variable {rt : Rust.Runtime} (hrt : rt.Lawful) {M : String → String → Prop} {S S' : List ASTNode} (h : RpcOk rt.wire S)
variable {f f' : FnNode} (hf : f ∈ methodsOf S)
include hrt h hf

omit hrt in
theorem args_wf : ∀ t ∈ f.args.map (·.typeId), WFType t := fun t ht => by
  obtain ⟨a, ha, rfl⟩ := List.mem_map.1 ht
  exact (Rust.wf_method h.accepted.wf hf).1 (a.id, a.typeId) (List.mem_map.2 ⟨a, ha, rfl⟩)

theorem return_answer {mid : Option Int} {v v' : Option Val} {bs : Bytes} (hv : SameResult rt.wire M S S' f f' v v')
    (ha : Spec.Answer rt.wire S f mid v bs) : Spec.Answer rt.wire S' f' mid v' bs := by
  obtain ⟨s, m, b, h2, h3, h4, h5⟩ := ha
  refine ⟨s, m, b, h2, h3, ?_, h5⟩
  match v, v', hv with
  | none, none, hv => exact ⟨hv.2, h4.2⟩
  | some v, some v', ⟨t, t', ht, ht', hv⟩ =>
    obtain ⟨t0, h6, h7⟩ := h4
    rw [ht] at h6
    obtain rfl := Option.some.inj h6
    exact ⟨t', ht', same_bytes hrt h (by simpa using (Rust.wf_method h.accepted.wf hf).2.1 t (by simp [ht])) hv h7⟩

/-- A request with further arguments begins with a request without them. -/
theorem more_request {ts es : List TypeId} (hm : MoreArgs M S S' f f' ts es) {mid : Option Int} {vs us vs' : List Val} {req : Bytes}
    (hv : SameVals rt.wire M S S' ts (f'.args.map (·.typeId)) vs vs') (hr : Request rt.wire S f mid (vs ++ us) req) :
    ∃ req' e, req = req' ++ e ∧ Request rt.wire S' f' mid vs' req' := by
  obtain ⟨h1, s, m, b, h2, h3, h4, h5⟩ := hr
  have e : ∀ g : FnNode, (argsOf g).map (·.2) = g.args.map (·.typeId) := fun g => by simp [argsOf]
  rw [e, hm.args] at h4
  have hwf := args_wf h hf
  rw [hm.args] at hwf
  obtain ⟨b1, b2, rfl, h6, -⟩ := enc_split (hasTys_len (same_hasTys hv).1) h4
  refine ⟨s ++ m ++ b1, b2, by simp [h5], by rw [h1, hm.isAsync], s, m, b1, h2, h3, ?_, rfl⟩
  rw [e]
  exact same_bytes hrt h (fun t ht => hwf t (by simp [ht])) hv h6

/-- A request without the last arguments, followed by bytes of values of their types, is a request with these values. -/
theorem fewer_request {ts' es : List TypeId} (hm : FewerArgs M S S' f f' ts' es) {mid : Option Int} {vs vs' us : List Val}
    {req e : Bytes} (hv : SameVals rt.wire M S S' (f.args.map (·.typeId)) ts' vs vs') (hr : Request rt.wire S f mid vs req)
    (hu : Enc rt.wire S' es us e) : Request rt.wire S' f' mid (vs' ++ us) (req ++ e) := by
  obtain ⟨h1, s, m, b, h2, h3, h4, h5⟩ := hr
  have ea : ∀ g : FnNode, (argsOf g).map (·.2) = g.args.map (·.typeId) := fun g => by simp [argsOf]
  rw [ea] at h4
  refine ⟨by rw [h1, hm.isAsync], s, m, b ++ e, h2, h3, ?_, by simp [h5]⟩
  rw [ea, hm.args]
  exact Enc.append (same_bytes hrt h (args_wf h hf) hv h4) hu

end

theorem group_eq {f f' : FnNode} (h1 : f'.isRead = f.isRead) (h2 : f'.isAsync = f.isAsync) : groupOf f' = groupOf f := by
  simp [groupOf, h1, h2]

/-- **C95, synchronous calls with further arguments.** A client generated from `S`, where a synchronous method has further
arguments at the end, calls a server generated from `S'`, where it has not: the function of the server is called once,
with the arguments that it knows, and its result is returned to the caller. -/
theorem C95_sync_call (x : Ext) (rr : Rust.Runtime) (rt : Dart.Runtime) (hd : Int) (M : String → String → Prop) (S S' : List ASTNode)
    (h : SystemOk x rr rt hd S) (h' : RpcOk rr.wire S') (hS : SameShape M S S') (hM : methodsOf S ≠ []) (hM' : methodsOf S' ≠ [])
    (outR outD : String) (hoR : RustGen.rpc S' = .ok outR) (hoD : DartGen.rpcMethods x S = .ok outD) :
    ∃ P R Q C, Rust.Emits S' P ∧ Rust.EmitsRpc S' R ∧ Dart.Emits x S Q ∧ Dart.EmitsRpc x S C ∧
      ∀ f ∈ methodsOf S, ∀ f' ∈ methodsOf S', ∀ ts es, MoreArgs M S S' f f' ts es → groupOf f = .sync → PortableMethod S f →
      ∀ (σ : Type) (lib : BufLib) (_ : lib.Lawful) (U : User σ) (rotate : Int → Int)
        (w : Dart.World (σ × List (String × List Val))) (ds : List Val) (as : List Nat),
        DartArgs x rt.wire S f ds → f'.position ∈ as →
        (∀ a ∈ as, ∃ g ∈ methodsOf S', groupOf g = .sync ∧ g.position = a ∧
          (g ≠ f' → NoMessage (rr.readP "u8") (w.mem a).server)) →
        ∃ vs us vs', Exchanged x rr.wire S (f.args.map (·.typeId)) (vs ++ us) ds ∧
          SameVals rr.wire M S S' ts (f'.args.map (·.typeId)) vs vs' ∧
          ∀ v v', RetIs (U f'.id vs' w.rest.1).1 v' → SameResult rr.wire M S S' f f' v v' → (∃ b, ResultIs rr.wire S f v b) →
          ∃ dv, ExchangedResult x rr.wire S f v dv ∧ ∃ N, ∀ k, N ≤ k → ∃ mem sent,
            Dart.callMethod rt Q k hd rotate C lib (loopSync (codecAt rr (P.withArgs R) k) lib U R.handlers as) (x.camel f.id) ds w
              = .ok (.ofResult dv, ⟨w.client, mem, sent, (U f'.id vs' w.rest.1).2, w.rest.2 ++ [(f'.id, vs')]⟩) := by
  have hA := h.server.accepted
  obtain ⟨scope, hR⟩ := Rust.emitsRpc_of h'.accepted.wf hoR hM'
  obtain ⟨ns, scope', hC, -⟩ := Dart.emitsRpc_of hA.wf hM hoD
  refine ⟨_, _, _, _, emits_genProg S' h'.accepted, hR, Dart.emits_genProg hA, hC, ?_⟩
  intro f hf f' hf' ts es hm hg hp σ lib hlib U rotate w ds as hds hpos has
  obtain ⟨v0, req, hex, hreq, hcall⟩ := sync_core h h' ns scope scope' hf hf' hg ((group_eq hm.isRead hm.isAsync).trans hg) hm.place hp
    (Y := SameResult rr.wire M S S' f f') (fun v v' b hv ha => return_answer h.rust h.server hf hv ha) hlib U rotate w ds as hds hpos has
  have hty := hex.1
  rw [hm.args] at hty
  obtain ⟨vs, us, rfl, h1, -⟩ := hasTys_split hty
  obtain ⟨vs', hs⟩ := same_total hS h1 _ hm.same
  obtain ⟨req', e, rfl, hreq'⟩ := more_request h.rust h.server hf hm hs hreq
  obtain ⟨rest, hrest⟩ := hlib (w.mem f.position).server (req' ++ e)
  exact ⟨vs, us, vs', hex, hs, hcall vs' req' (e ++ rest) hreq' (by simpa using hrest)⟩

/-- **C95, asynchronous calls with further arguments.** The server of `S'` handles a request of `S` with further arguments:
its handler starts one future, which calls the function once, with the arguments that it knows, and leaves the answer of
`S` to that request in the client's buffer. -/
theorem C95_async_call (rt : Rust.Runtime) (hrt : rt.Lawful) (M : String → String → Prop) (S S' : List ASTNode)
    (h : RpcOk rt.wire S) (h' : RpcOk rt.wire S') (hM' : methodsOf S' ≠ []) (out : String) (hout : RustGen.rpc S' = .ok out) :
    ∃ P R, Rust.Emits S' P ∧ Rust.EmitsRpc S' R ∧ ∀ f ∈ methodsOf S, ∀ f' ∈ methodsOf S', ∀ ts es, MoreArgs M S S' f f' ts es →
      f.isRead = false → f.isAsync = true → ∃ hd, R.handlers.lookup f.position = some hd ∧
      ∀ (σ : Type) (lib : BufLib) (_ : lib.Lawful) (U : User σ) (m : Bufs) (u : σ) (i : Int) (vs us vs' : List Val) (req rest : Bytes),
        Request rt.wire S f (some i) (vs ++ us) req → m.server = req ++ rest →
        SameVals rt.wire M S S' ts (f'.args.map (·.typeId)) vs vs' →
        ∃ N, ∀ k, N ≤ k → ∃ m' t,
          Rust.runHandler (codecAt rt (P.withArgs R) k) lib U hd m u = .ok ⟨m', u, [], [t], true⟩ ∧
          ∀ (r : Rust.Ret) (v v' : Option Val) (ans : Bytes), RetIs r v' → SameResult rt.wire M S S' f f' v v' →
            Spec.Answer rt.wire S f (some i) v ans →
            ∃ N', ∀ k', N' ≤ k' → ∀ (m1 : Bufs) (u1 : σ), ∃ n rest',
              Rust.runFuture (codecAt rt (P.withArgs R) k') lib U r n m1 u1 t = .ok (⟨m1.server, ans ++ rest'⟩, [(f'.id, vs')]) := by
  obtain ⟨P, R, h1, h2, h3⟩ := C33_async_exactly_once rt hrt S' h' hM' out hout
  refine ⟨P, R, h1, h2, fun f hf f' hf' ts es hm hr ha => ?_⟩
  obtain ⟨hd, h4, h5⟩ := h3 f' hf' (by rw [hm.isRead, hr]) (by rw [hm.isAsync, ha])
  refine ⟨hd, hm.place ▸ h4, fun σ lib hlib U m u i vs us vs' req rest hreq hmem hv => ?_⟩
  obtain ⟨req', e, rfl, hreq'⟩ := more_request hrt h hf hm hv hreq
  obtain ⟨N, h6⟩ := h5 σ lib hlib U m u i vs' req' (e ++ rest) hreq' (by simpa using hmem)
  refine ⟨N, fun k hk => ?_⟩
  obtain ⟨m', t, h7, -, h8⟩ := h6 k hk
  exact ⟨m', t, h7, fun r v v' ans hret hsv hans => h8 r v' ans hret (return_answer hrt h hf hsv hans)⟩

/-! ## C95, missing arguments -/

/-- **C95, synchronous calls with missing arguments.** A client generated from `S` calls a server generated from `S'`,
where a synchronous method has further arguments at the end.  If the bytes that are in the buffer behind the request begin
with bytes of values of their types, the function of the server is called with these values, which the client has
never sent, and the call returns as usual. -/
theorem C95_missing_sync (x : Ext) (rr : Rust.Runtime) (rt : Dart.Runtime) (hd : Int) (M : String → String → Prop) (S S' : List ASTNode)
    (h : SystemOk x rr rt hd S) (h' : RpcOk rr.wire S') (hS : SameShape M S S') (hM : methodsOf S ≠ []) (hM' : methodsOf S' ≠ [])
    (outR outD : String) (hoR : RustGen.rpc S' = .ok outR) (hoD : DartGen.rpcMethods x S = .ok outD) :
    ∃ P R Q C, Rust.Emits S' P ∧ Rust.EmitsRpc S' R ∧ Dart.Emits x S Q ∧ Dart.EmitsRpc x S C ∧
      ∀ f ∈ methodsOf S, ∀ f' ∈ methodsOf S', ∀ ts' es, FewerArgs M S S' f f' ts' es → groupOf f = .sync → PortableMethod S f →
      ∀ (σ : Type) (lib : BufLib) (_ : lib.Lawful) (U : User σ) (rotate : Int → Int)
        (w : Dart.World (σ × List (String × List Val))) (ds : List Val) (as : List Nat),
        DartArgs x rt.wire S f ds → f'.position ∈ as →
        (∀ a ∈ as, ∃ g ∈ methodsOf S', groupOf g = .sync ∧ g.position = a ∧
          (g ≠ f' → NoMessage (rr.readP "u8") (w.mem a).server)) →
        ∃ vs vs' req, Exchanged x rr.wire S (f.args.map (·.typeId)) vs ds ∧ Request rr.wire S f none vs req ∧
          SameVals rr.wire M S S' (f.args.map (·.typeId)) ts' vs vs' ∧
          ∀ us e rest, Enc rr.wire S' es us e → lib (w.mem f.position).server req = req ++ e ++ rest →
          ∀ v v', RetIs (U f'.id (vs' ++ us) w.rest.1).1 v' → SameResult rr.wire M S S' f f' v v' → (∃ b, ResultIs rr.wire S f v b) →
          ∃ dv, ExchangedResult x rr.wire S f v dv ∧ ∃ N, ∀ k, N ≤ k → ∃ mem sent,
            Dart.callMethod rt Q k hd rotate C lib (loopSync (codecAt rr (P.withArgs R) k) lib U R.handlers as) (x.camel f.id) ds w
              = .ok (.ofResult dv, ⟨w.client, mem, sent, (U f'.id (vs' ++ us) w.rest.1).2, w.rest.2 ++ [(f'.id, vs' ++ us)]⟩) := by
  have hA := h.server.accepted
  obtain ⟨scope, hR⟩ := Rust.emitsRpc_of h'.accepted.wf hoR hM'
  obtain ⟨ns, scope', hC, -⟩ := Dart.emitsRpc_of hA.wf hM hoD
  refine ⟨_, _, _, _, emits_genProg S' h'.accepted, hR, Dart.emits_genProg hA, hC, ?_⟩
  intro f hf f' hf' ts' es hm hg hp σ lib hlib U rotate w ds as hds hpos has
  obtain ⟨vs, req, hex, hreq, hcall⟩ := sync_core h h' ns scope scope' hf hf' hg ((group_eq hm.isRead hm.isAsync).trans hg) hm.place hp
    (Y := SameResult rr.wire M S S' f f') (fun v v' b hv ha => return_answer h.rust h.server hf hv ha) hlib U rotate w ds as hds hpos has
  obtain ⟨vs', hs⟩ := same_total hS hex.1 _ hm.same
  exact ⟨vs, vs', req, hex, hreq, hs, fun us e rest hu hl =>
    hcall (vs' ++ us) (req ++ e) rest (fewer_request h.rust h.server hf hm hs hreq hu) hl⟩

/-- **C95, asynchronous calls with missing arguments.** The same for a request of an asynchronous method: if the bytes
behind it begin with bytes of values of the missing types, the function of the server is called with these values. -/
theorem C95_missing_async (rt : Rust.Runtime) (hrt : rt.Lawful) (M : String → String → Prop) (S S' : List ASTNode)
    (h : RpcOk rt.wire S) (h' : RpcOk rt.wire S') (hM' : methodsOf S' ≠ []) (out : String) (hout : RustGen.rpc S' = .ok out) :
    ∃ P R, Rust.Emits S' P ∧ Rust.EmitsRpc S' R ∧ ∀ f ∈ methodsOf S, ∀ f' ∈ methodsOf S', ∀ ts' es, FewerArgs M S S' f f' ts' es →
      f.isRead = false → f.isAsync = true → ∃ hd, R.handlers.lookup f.position = some hd ∧
      ∀ (σ : Type) (lib : BufLib) (_ : lib.Lawful) (U : User σ) (m : Bufs) (u : σ) (i : Int) (vs vs' us : List Val) (req e rest : Bytes),
        Request rt.wire S f (some i) vs req → Enc rt.wire S' es us e → m.server = req ++ e ++ rest →
        SameVals rt.wire M S S' (f.args.map (·.typeId)) ts' vs vs' →
        ∃ N, ∀ k, N ≤ k → ∃ m' t,
          Rust.runHandler (codecAt rt (P.withArgs R) k) lib U hd m u = .ok ⟨m', u, [], [t], true⟩ ∧
          ∀ (r : Rust.Ret) (v v' : Option Val) (ans : Bytes), RetIs r v' → SameResult rt.wire M S S' f f' v v' →
            Spec.Answer rt.wire S f (some i) v ans →
            ∃ N', ∀ k', N' ≤ k' → ∀ (m1 : Bufs) (u1 : σ), ∃ n rest',
              Rust.runFuture (codecAt rt (P.withArgs R) k') lib U r n m1 u1 t = .ok (⟨m1.server, ans ++ rest'⟩, [(f'.id, vs' ++ us)]) := by
  obtain ⟨P, R, h1, h2, h3⟩ := C33_async_exactly_once rt hrt S' h' hM' out hout
  refine ⟨P, R, h1, h2, fun f hf f' hf' ts' es hm hr ha => ?_⟩
  obtain ⟨hd, h4, h5⟩ := h3 f' hf' (by rw [hm.isRead, hr]) (by rw [hm.isAsync, ha])
  refine ⟨hd, hm.place ▸ h4, fun σ lib hlib U m u i vs vs' us req e rest hreq hu hmem hv => ?_⟩
  obtain ⟨N, h6⟩ := h5 σ lib hlib U m u i (vs' ++ us) (req ++ e) rest (fewer_request hrt h hf hm hv hreq hu) hmem
  refine ⟨N, fun k hk => ?_⟩
  obtain ⟨m', t, h7, -, h8⟩ := h6 k hk
  exact ⟨m', t, h7, fun r v v' ans hret hsv hans => h8 r v' ans hret (return_answer hrt h hf hsv hans)⟩

/-! ## Examples -/

def itemColor : EnumNode := ⟨"Color", [.empty 0 "Red", .empty 1 "Green"]⟩
def itemOld : StructNode := ⟨"Item", [⟨0, "size", .integer "i64" 8 true⟩, ⟨1, "color", .other "Color"⟩], true, true⟩
def itemNew : StructNode :=
  ⟨"Item", [⟨0, "size", .integer "i64" 8 true⟩, ⟨1, "color", .other "Color"⟩, ⟨2, "more", .generic "Vec" [.other "Color"]⟩], true, true⟩

/-- `enum Color { Red, Green } struct Item { size: i64, color: Color }` -/
def itemsOld : List ASTNode := [.enum itemColor, .struct itemOld]

/-- `enum Color { Red, Green } struct Item { size: i64, color: Color, more: Vec<Color> }` -/
def itemsNew : List ASTNode := [.enum itemColor, .struct itemNew]

/-- Only `Color` is the same type in both. -/
def sameColor (id id' : String) : Prop := id = "Color" ∧ id' = "Color"

theorem itemsOld_wf : WFSchema 0 itemsOld := by
  have h1 : WFType (.integer "i64" 8 true) := .name "i64"
  have h2 : WFType (.other "Color") := .name "Color"
  refine ⟨⟨by simp [itemColor], .inl rfl, ?_⟩, ⟨⟨.inl rfl, ?_⟩, rfl, rfl⟩, trivial⟩
  · simp [itemColor, WFItem]
  · simp [itemOld, h1, h2]

theorem itemsNew_wf : WFSchema 0 itemsNew := by
  have h1 : WFType (.integer "i64" 8 true) := .name "i64"
  have h2 : WFType (.other "Color") := .name "Color"
  have h3 : WFType (.generic "Vec" [.other "Color"]) := .generic _ _ (by simp) (by simpa using h2)
  refine ⟨⟨by simp [itemColor], .inl rfl, ?_⟩, ⟨⟨.inl rfl, ?_⟩, rfl, rfl⟩, trivial⟩
  · simp [itemColor, WFItem]
  · simp [itemNew, h1, h2, h3]

theorem itemsOld_ready : DartReady testExt itemsOld where
  accepted := by
    obtain ⟨ts, _, h⟩ := C09_every_schema _ itemsOld_wf
    exact ⟨_, h⟩
  named := {
    classes := by decide +kernel
    fields := by simp [itemsOld, itemOld, dartFieldNames]; decide +kernel
    variants := by simp [itemsOld, itemColor, EnumItem.id]; decide +kernel
    payloads := by simp [itemsOld, itemColor, dartPayloadNames]
    plain := by decide +kernel
    lists := by decide +kernel
    structLib := by simp [itemsOld, itemOld, fieldsOf, LibraryFree]; decide +kernel
    enumLib := by simp [itemsOld, itemColor, payload] }
  defaults := {
    finite := ⟨fun s => if s = "Color" then 0 else 1, by
      simp [itemsOld, itemColor, itemOld, declName, directTypes, fieldsOf, payload, typeNames]⟩
    inhabited := by simp [itemsOld, itemColor, payload] }
  distinct := by simp [DistinctNumbers, itemsOld, itemColor, EnumItem.position]
  numbers := by simp [itemsOld, itemColor, EnumItem.position]

theorem itemsNew_ready : DartReady testExt itemsNew where
  accepted := by
    obtain ⟨ts, _, h⟩ := C09_every_schema _ itemsNew_wf
    exact ⟨_, h⟩
  named := {
    classes := by decide +kernel
    fields := by simp [itemsNew, itemNew, dartFieldNames]; decide +kernel
    variants := by simp [itemsNew, itemColor, EnumItem.id]; decide +kernel
    payloads := by simp [itemsNew, itemColor, dartPayloadNames]
    plain := by decide +kernel
    lists := by decide +kernel
    structLib := by simp [itemsNew, itemNew, fieldsOf, LibraryFree, dartElem]; decide +kernel
    enumLib := by simp [itemsNew, itemColor, payload] }
  defaults := {
    finite := ⟨fun s => if s = "Color" then 0 else 1, by
      simp [itemsNew, itemColor, itemNew, declName, directTypes, fieldsOf, payload, typeNames]⟩
    inhabited := by simp [itemsNew, itemColor, payload] }
  distinct := by simp [DistinctNumbers, itemsNew, itemColor, EnumItem.position]
  numbers := by simp [itemsNew, itemColor, EnumItem.position]

theorem items_same : SameShape sameColor itemsNew itemsOld where
  struct := by
    intro n hn id' hm
    simp only [itemsNew, List.mem_cons, ASTNode.struct.injEq, reduceCtorEq, List.not_mem_nil, or_false, false_or] at hn
    subst hn
    simp [itemNew, sameColor] at hm
  enum := by
    intro n hn id' hm
    simp only [itemsNew, List.mem_cons, ASTNode.enum.injEq, reduceCtorEq, List.not_mem_nil, or_false] at hn
    subst hn
    obtain ⟨-, rfl⟩ := hm
    refine ⟨itemColor, by simp [itemsOld], rfl, fun i hi => ⟨i, hi, rfl, ?_⟩⟩
    simp only [itemColor, List.mem_cons, List.not_mem_nil, or_false] at hi
    rcases hi with rfl | rfl <;> exact ⟨rfl, by simp [payload]⟩

theorem item_more : MoreFields sameColor itemsNew itemsOld itemNew itemOld [.integer "i64" 8 true, .other "Color"]
    [.generic "Vec" [.other "Color"]] where
  types := rfl
  same := sameTys_mk (.builtin _ rfl) (sameTys_mk (.declared _ _ (by decide) ⟨rfl, rfl⟩) ⟨rfl, by simp⟩)

theorem items_renamable : RenamableSchema itemsNew itemsOld where
  fields := by
    intro n hn f hf
    simp only [itemsNew, List.mem_cons, ASTNode.struct.injEq, reduceCtorEq, List.not_mem_nil, or_false, false_or] at hn
    subst hn
    simp only [itemNew, fieldsOf, List.map_cons, List.map_nil, List.mem_cons, List.not_mem_nil, or_false] at hf
    rcases hf with rfl | rfl | rfl
    · exact .builtin _ rfl
    · exact .name _
    · exact .list _
  payloads := by
    intro n hn i hi f hf
    simp only [itemsNew, List.mem_cons, ASTNode.enum.injEq, reduceCtorEq, List.not_mem_nil, or_false] at hn
    subst hn
    simp only [itemColor, List.mem_cons, List.not_mem_nil, or_false] at hi
    rcases hi with rfl | rfl <;> simp [payload] at hf

theorem items_values {W : Wire} {S : List ASTNode} (id : String) (hc : .enum itemColor ∈ S) (hW : (W.head "Vec" 1).isSome)
    (hp : pick [TypeId.other "Color"] (W.sub "Vec" 1) = some [TypeId.other "Color"]) :
    HasTys W S [.integer id 8 true, .other "Color"] [.int (-7), .enum "Color" "Green" []] ∧
    HasTys W S [.generic "Vec" [.other "Color"]] [.list 1 [.enum "Color" "Red" []]] := by
  have g : ∀ i, i ∈ itemColor.items → payload i = [] → HasTys W S [.other "Color"] [.enum "Color" i.id []] := fun i hi hp => by
    have := HasTys.enum (W := W) (S := S) itemColor i [] [] [] hc hi (by rw [hp]; exact .nil) .nil
    rwa [hp] at this
  exact ⟨.leaf _ _ _ _ (by simp [LeafVal]) (g (.empty 1 "Green") (by simp [itemColor]) rfl),
    .list _ _ _ _ _ _ _ hW hp (g (.empty 0 "Red") (by simp [itemColor]) rfl) .nil⟩

/-- `C95_rust` and `C95_dart` on an item. -/
example : ∃ P P' b e, Rust.Emits itemsNew P ∧ Rust.Emits itemsOld P' ∧
    Rust.Writes LE.rust P (.other "Item")
      (.struct "Item" [("size", .int (-7)), ("color", .enum "Color" "Green" []), ("more", .list 1 [.enum "Color" "Red" []])]) (b ++ e) ∧
    ∃ v, Rust.Reads LE.rust P' (.other "Item") (b ++ e ++ [42]) v (e ++ [42]) := by
  obtain ⟨P, P', h1, h2, h3⟩ := C95_rust LE.rust LE.rust_lawful sameColor itemsNew itemsOld itemsNew_ready.accepted
    itemsOld_ready.accepted
    { types := by decide
      builtins := by decide
      fields := by simp [itemsNew, itemNew, fieldsOf]
      variants := by simp [itemsNew, itemColor, EnumItem.id]
      payloads := by simp [itemsNew, itemColor]
      numbers := by simp [itemsNew, itemColor, EnumItem.position] }
    { types := by decide
      builtins := by decide
      fields := by simp [itemsOld, itemOld, fieldsOf]
      variants := by simp [itemsOld, itemColor, EnumItem.id]
      payloads := by simp [itemsOld, itemColor]
      numbers := by simp [itemsOld, itemColor, EnumItem.position] }
    (by simp [Rust.NoWriterClash, itemsNew, itemColor]) (by simp [Rust.NoWriterClash, itemsOld, itemColor])
    itemsNew_ready.distinct itemsOld_ready.distinct items_same
  have hv := items_values (W := LE.rust.wire) (S := itemsNew) "i64" (by simp [itemsNew]) (by simp [LE.rust, LE.wire])
    (by simp [LE.rust, LE.wire, pick])
  obtain ⟨vs', b, e, -, h4, -, h5, -⟩ := h3 itemNew itemOld _ _ (by simp [itemsNew]) (by simp [itemsOld]) item_more _ _ hv.1 hv.2
  exact ⟨P, P', b, e, h1, h2, h4, _, h5 [42]⟩

example : ∃ P P' b e, Dart.Emits testExt itemsNew P ∧ Dart.Emits testExt itemsOld P' ∧
    ∃ d d', Dart.Writes LE.dart P .into (.other "Item") d (b ++ e) ∧ Dart.Reads LE.dart P' (.other "Item") (b ++ e ++ [42]) d' (e ++ [42]) := by
  obtain ⟨P, P', h1, h2, h3⟩ := C95_dart testExt LE.dart LE.dart_lawful sameColor itemsNew itemsOld itemsNew_ready itemsOld_ready
    items_renamable items_same
  have hv := items_values (W := LE.dart.wire) (S := dartSchema itemsNew) "Int64" (by simp [dartSchema, itemsNew, viewDecl, itemColor, viewItem])
    (by decide +kernel) rfl
  obtain ⟨vs', b, e, -, h4, -, ⟨d', -, h5⟩, d, h6, -⟩ := h3 itemNew itemOld _ _ (by simp [itemsNew]) (by simp [itemsOld]) item_more
    (Dart.declared_free itemsNew_ready.named (by decide)) (Dart.declared_free itemsOld_ready.named (by decide)) _ _ hv.1 hv.2
  exact ⟨P, P', b, e, h1, h2, d, d', h4 .into d h6, h5 [42]⟩

/-- `fn keep(n: i64);` -/
def oneArgFn : FnNode := ⟨"keep", 0, [⟨"n", .integer "i64" 8 true⟩], none, false, false⟩

def oneArg : List ASTNode :=
  [.directive (.value "namespace" ⟨.str "demo", .other "String"⟩), .directive (.value "id" ⟨.str "8b61", .other "String"⟩), .fn oneArgFn]

theorem oneArg_wf : WFSchema 0 oneArg := by
  have h2 : WFType (.integer "i64" 8 true) := .name "i64"
  simp [oneArg, oneArgFn, WFSchema, WFDecl, WFConst, fnCount, h2]
  trivial

theorem oneArg_ok : RpcOk LE.wire oneArg where
  accepted := by
    obtain ⟨ts, _, h⟩ := C09_every_schema _ oneArg_wf
    exact ⟨_, h⟩
  named :=
    { types := by decide
      builtins := by decide
      fields := by simp [oneArg]
      variants := by simp [oneArg]
      payloads := by simp [oneArg]
      numbers := by simp [oneArg] }
  distinct := by simp [DistinctNumbers, oneArg]
  noClash := by simp [Rust.NoWriterClash, oneArg]
  rpcNamed := { methods := by decide, args := by decide, structs := by decide, locals := by decide }
  noExt := noExtArgs_LE _

theorem oneArg_system : SystemOk testExt LE.rust LE.dart (-1) oneArg where
  rust := LE.rust_lawful
  dart := LE.dart_lawful
  server := oneArg_ok
  dartNamed :=
    { classes := by decide +kernel
      fields := by simp [oneArg]
      variants := by simp [oneArg]
      payloads := by simp [oneArg]
      plain := by decide +kernel
      lists := by decide +kernel
      structLib := by simp [oneArg]
      enumLib := by simp [oneArg] }
  client := { members := by decide +kernel, rotate := by decide +kernel, params := by decide +kernel, locals := by decide +kernel }
  defaults := ⟨⟨fun _ => 0, by simp [oneArg, declName]⟩, by simp [oneArg]⟩
  portable := ⟨by simp [oneArg], by simp [oneArg], by simp [oneArg]⟩
  agree := LE.agree
  status := LE_status

theorem oneArg_out : (∃ out, RustGen.rpc oneArg = .ok out) ∧ ∃ out, DartGen.rpcMethods testExt oneArg = .ok out :=
  ⟨⟨_, Rust.rpc_render _ (by simp [oneArg, findFnNodes]) _ rfl⟩,
   ⟨_, Dart.rpc_render oneArg (fun f hf => Dart.sizedFn_of_wf oneArg_wf (by rwa [findFnNodes_eq] at hf))
      (by simp [oneArg, findFnNodes]) (by decide) "demo" "8b61" rfl rfl⟩⟩

/-- `fn keep(n: i64, m: i64);` -/
def twoArgsFn : FnNode := ⟨"keep", 0, [⟨"n", .integer "i64" 8 true⟩, ⟨"m", .integer "i64" 8 true⟩], none, false, false⟩

def twoArgs : List ASTNode :=
  [.directive (.value "namespace" ⟨.str "demo", .other "String"⟩), .directive (.value "id" ⟨.str "8b61", .other "String"⟩), .fn twoArgsFn]

theorem twoArgs_wf : WFSchema 0 twoArgs := by
  have h2 : WFType (.integer "i64" 8 true) := .name "i64"
  simp [twoArgs, twoArgsFn, WFSchema, WFDecl, WFConst, fnCount, h2]
  trivial

theorem twoArgs_ok : RpcOk LE.wire twoArgs where
  accepted := by
    obtain ⟨ts, _, h⟩ := C09_every_schema _ twoArgs_wf
    exact ⟨_, h⟩
  named :=
    { types := by decide
      builtins := by decide
      fields := by simp [twoArgs]
      variants := by simp [twoArgs]
      payloads := by simp [twoArgs]
      numbers := by simp [twoArgs] }
  distinct := by simp [DistinctNumbers, twoArgs]
  noClash := by simp [Rust.NoWriterClash, twoArgs]
  rpcNamed := { methods := by decide, args := by decide, structs := by decide, locals := by decide }
  noExt := noExtArgs_LE _

theorem twoArgs_system : SystemOk testExt LE.rust LE.dart (-1) twoArgs where
  rust := LE.rust_lawful
  dart := LE.dart_lawful
  server := twoArgs_ok
  dartNamed :=
    { classes := by decide +kernel
      fields := by simp [twoArgs]
      variants := by simp [twoArgs]
      payloads := by simp [twoArgs]
      plain := by decide +kernel
      lists := by decide +kernel
      structLib := by simp [twoArgs]
      enumLib := by simp [twoArgs] }
  client := { members := by decide +kernel, rotate := by decide +kernel, params := by decide +kernel, locals := by decide +kernel }
  defaults := ⟨⟨fun _ => 0, by simp [twoArgs, declName]⟩, by simp [twoArgs]⟩
  portable := ⟨by simp [twoArgs], by simp [twoArgs], by simp [twoArgs]⟩
  agree := LE.agree
  status := LE_status

theorem twoArgs_out : (∃ out, RustGen.rpc twoArgs = .ok out) ∧ ∃ out, DartGen.rpcMethods testExt twoArgs = .ok out :=
  ⟨⟨_, Rust.rpc_render _ (by simp [twoArgs, findFnNodes]) _ rfl⟩,
   ⟨_, Dart.rpc_render twoArgs (fun f hf => Dart.sizedFn_of_wf twoArgs_wf (by rwa [findFnNodes_eq] at hf))
      (by simp [twoArgs, findFnNodes]) (by decide) "demo" "8b61" rfl rfl⟩⟩

theorem twoArgs_more : MoreArgs (fun _ _ => False) twoArgs oneArg twoArgsFn oneArgFn [.integer "i64" 8 true] [.integer "i64" 8 true] where
  place := rfl
  isRead := rfl
  isAsync := rfl
  args := rfl
  same := sameTys_mk (.builtin _ rfl) ⟨rfl, by simp⟩
  result := .inl ⟨rfl, rfl⟩

theorem oneArg_fewer : FewerArgs (fun _ _ => False) oneArg twoArgs oneArgFn twoArgsFn [.integer "i64" 8 true] [.integer "i64" 8 true] where
  place := rfl
  isRead := rfl
  isAsync := rfl
  args := rfl
  same := sameTys_mk (.builtin _ rfl) ⟨rfl, by simp⟩
  result := .inl ⟨rfl, rfl⟩

/-- `C95_sync_call`: a new client calls `keep(5, 6)`, an old server calls `keep(5)`. -/
example : ∃ P R Q C, Rust.Emits oneArg P ∧ Rust.EmitsRpc oneArg R ∧ Dart.Emits testExt twoArgs Q ∧ Dart.EmitsRpc testExt twoArgs C ∧
    ∃ v N, ∀ k, N ≤ k → ∃ mem sent,
      Dart.callMethod LE.dart Q k (-1) (· + 1) C (fun _ bs => bs)
        (loopSync (codecAt LE.rust (P.withArgs R) k) (fun _ bs => bs) (fun _ _ u => (.unit, u + 1)) R.handlers [0]) "keep" [.int 5, .int 6]
        ⟨.fresh, fun _ => ⟨[0], [0]⟩, [], (0 : Nat), []⟩
      = .ok (.ofResult none, ⟨.fresh, mem, sent, 1, [("keep", [v])]⟩) := by
  obtain ⟨⟨outR, hR⟩, -⟩ := oneArg_out
  obtain ⟨-, outD, hD⟩ := twoArgs_out
  obtain ⟨P, R, Q, C, h1, h2, h3, h4, h5⟩ := C95_sync_call testExt LE.rust LE.dart (-1) (fun _ _ => False) twoArgs oneArg
    twoArgs_system oneArg_ok ⟨by simp [twoArgs], by simp [twoArgs]⟩ (by simp [twoArgs, methodsOf]) (by simp [oneArg, methodsOf])
    outR outD hR hD
  have hi : Portable twoArgs (.integer "i64" 8 true) := .int _ _ _ (by simp [builtinTypes])
  obtain ⟨vs, us, vs', -, hv, h6⟩ := h5 twoArgsFn (by simp [twoArgs, methodsOf]) oneArgFn (by simp [oneArg, methodsOf]) _ _ twoArgs_more rfl
    ⟨by intro a ha; simp [twoArgsFn] at ha; rcases ha with rfl | rfl <;> exact ⟨hi, trivial⟩, by simp [twoArgsFn]⟩ Nat (fun _ bs => bs) (fun _ bs => ⟨[], by simp⟩)
    (fun _ _ u => (.unit, u + 1)) (· + 1) ⟨.fresh, fun _ => ⟨[0], [0]⟩, [], (0 : Nat), []⟩ [.int 5, .int 6] [0]
    ⟨[.int 5, .int 6], .leaf _ _ _ _ (by decide) (.leaf _ _ _ _ (by decide) .nil),
      .leaf _ _ _ _ _ rfl (.leaf _ _ _ _ _ rfl .nil)⟩ (by simp [oneArgFn]) (by
      intro a ha
      obtain rfl : a = 0 := by simpa using ha
      exact ⟨oneArgFn, by simp [oneArg, methodsOf], rfl, rfl, fun h => absurd rfl h⟩)
  obtain ⟨v, rfl⟩ : ∃ v, vs' = [v] := by
    have := hasTys_len (same_hasTys hv).2
    match vs', this with
    | [v], _ => exact ⟨v, rfl⟩
  obtain ⟨dv, h7, N, h8⟩ := h6 none none trivial ⟨rfl, rfl⟩ ⟨[], rfl, rfl⟩
  cases dv with
  | some d => simp [ExchangedResult] at h7
  | none =>
    refine ⟨P, R, Q, C, h1, h2, h3, h4, v, N, fun k hk => ?_⟩
    have e : testExt.camel "keep" = "keep" := by decide +kernel
    have := h8 k hk
    simp only [twoArgsFn, oneArgFn, e] at this
    exact this

/-- Asynchronous methods as `C95_async_call` and `C95_missing_async` ask for: `async fn keep(n: i64);` and
`async fn keep(n: i64, m: i64);`. -/
example : ∃ f f' : FnNode, f.isAsync = true ∧ f'.isAsync = true ∧
    MoreArgs (fun _ _ => False) [.fn f'] [.fn f] f' f [.integer "i64" 8 true] [.integer "i64" 8 true] ∧
    FewerArgs (fun _ _ => False) [.fn f] [.fn f'] f f' [.integer "i64" 8 true] [.integer "i64" 8 true] ∧
    ∃ req e, Request LE.wire [.fn f'] f' (some 3) [.int 5, .int 6] (req ++ e) ∧ Request LE.wire [.fn f] f (some 3) [.int 5] req := by
  have e1 : LE.wire.prim "u8" (.int 255) = some [255] := by decide +kernel
  have e2 : LE.wire.prim "i64" (.int 3) = some [3, 0, 0, 0, 0, 0, 0, 0] := by decide +kernel
  have e3 : LE.wire.prim "i64" (.int 5) = some [5, 0, 0, 0, 0, 0, 0, 0] := by decide +kernel
  have e4 : LE.wire.prim "i64" (.int 6) = some [6, 0, 0, 0, 0, 0, 0, 0] := by decide +kernel
  refine ⟨{ oneArgFn with isAsync := true }, { twoArgsFn with isAsync := true }, rfl, rfl,
    ⟨rfl, rfl, rfl, rfl, sameTys_mk (.builtin _ rfl) ⟨rfl, by simp⟩, .inl ⟨rfl, rfl⟩⟩,
    ⟨rfl, rfl, rfl, rfl, sameTys_mk (.builtin _ rfl) ⟨rfl, by simp⟩, .inl ⟨rfl, rfl⟩⟩,
    [255, 3, 0, 0, 0, 0, 0, 0, 0, 5, 0, 0, 0, 0, 0, 0, 0], [6, 0, 0, 0, 0, 0, 0, 0],
    ⟨rfl, [255], [3, 0, 0, 0, 0, 0, 0, 0], [5, 0, 0, 0, 0, 0, 0, 0] ++ ([6, 0, 0, 0, 0, 0, 0, 0] ++ []), e1, e2,
      .leaf _ _ _ _ _ _ _ rfl e3 (.leaf _ _ _ _ _ _ _ rfl e4 .nil), rfl⟩,
    ⟨rfl, [255], [3, 0, 0, 0, 0, 0, 0, 0], [5, 0, 0, 0, 0, 0, 0, 0] ++ [], e1, e2, .leaf _ _ _ _ _ _ _ rfl e3 .nil, rfl⟩⟩

/-! ## What is passed instead of a missing argument -/

/-- **C95, what is passed instead.** A client generated from `fn keep(n: i64);` shares a server generated from
`fn keep(n: i64, m: i64);` with another client, whose last call was `keep(k, m)`: the buffer, which is overwritten from
its beginning, still holds these arguments.  When the first client calls `keep(n)`, the server calls `keep(n, m)`, with
the argument of the other client, whatever the user's functions do, and the call returns as usual. -/
theorem C95_stale : ∃ P R Q C, Rust.Emits twoArgs P ∧ Rust.EmitsRpc twoArgs R ∧ Dart.Emits testExt oneArg Q ∧
    Dart.EmitsRpc testExt oneArg C ∧ ∀ (σ : Type) (U : User σ) (u : σ) (s : UInt8) (n k m : Int) (bk bm rest client : Bytes),
      -(2 ^ 63) ≤ n ∧ n < 2 ^ 63 → LE.wire.prim "i64" (.int k) = some bk → LE.wire.prim "i64" (.int m) = some bm →
      (∀ vs, RetIs (U "keep" vs u).1 none) →
      ∃ N, ∀ j, N ≤ j → ∃ mem sent,
        Dart.callMethod LE.dart Q j (-1) (· + 1) C overwrite
          (loopSync (codecAt LE.rust (P.withArgs R) j) overwrite U R.handlers [0]) "keep" [.int n]
          ⟨.fresh, fun _ => ⟨s :: (bk ++ bm ++ rest), client⟩, [], u, []⟩
        = .ok (.ofResult none, ⟨.fresh, mem, sent, (U "keep" [.int n, .int m] u).2, [("keep", [.int n, .int m])]⟩) := by
  obtain ⟨⟨outR, hR⟩, -⟩ := twoArgs_out
  obtain ⟨-, outD, hD⟩ := oneArg_out
  obtain ⟨P, R, Q, C, h1, h2, h3, h4, h5⟩ := C95_missing_sync testExt LE.rust LE.dart (-1) (fun _ _ => False) oneArg twoArgs
    oneArg_system twoArgs_ok ⟨by simp [oneArg], by simp [oneArg]⟩ (by simp [oneArg, methodsOf]) (by simp [twoArgs, methodsOf])
    outR outD hR hD
  refine ⟨P, R, Q, C, h1, h2, h3, h4, fun σ U u s n k m bk bm rest client hn hk hm hU => ?_⟩
  have hi : Portable oneArg (.integer "i64" 8 true) := .int _ _ _ (by simp [builtinTypes])
  obtain ⟨vs, vs', req, ⟨-, us, hx, hr⟩, hreq, hv, h6⟩ := h5 oneArgFn (by simp [oneArg, methodsOf]) twoArgsFn
    (by simp [twoArgs, methodsOf]) _ _ oneArg_fewer rfl
    ⟨by intro a ha; simp [oneArgFn] at ha; subst ha; exact ⟨hi, trivial⟩, by simp [oneArgFn]⟩ σ overwrite overwrite_lawful U (· + 1)
    ⟨.fresh, fun _ => ⟨s :: (bk ++ bm ++ rest), client⟩, [], u, []⟩ [.int n] [0]
    ⟨[.int n], .leaf _ _ _ _ hn .nil, .leaf _ _ _ _ _ rfl .nil⟩ (by simp [twoArgsFn]) (by
      intro a ha
      obtain rfl : a = 0 := by simpa using ha
      exact ⟨twoArgsFn, by simp [twoArgs, methodsOf], rfl, rfl, fun h => absurd rfl h⟩)
  obtain ⟨rfl, rfl⟩ : vs = [.int n] ∧ vs' = [.int n] := by
    simp only [oneArgFn, List.map_cons, List.map_nil] at hx hr hv
    cases hv with
    | builtin _ v hl hv =>
      cases hv
      cases hx with
      | int _ _ _ l _ _ _ hx =>
        cases hx
        cases hr with
        | leaf _ _ _ _ _ _ hr =>
          cases hr
          have : asSigned 8 l = l := if_pos hl.2
          rw [this]
          exact ⟨rfl, rfl⟩
  have hlen : ∀ (a : Int) (b : Bytes), LE.wire.prim "i64" (.int a) = some b → b.length = 8 := by
    intro a b hb
    have e : builtinTypes.lookup "i64" = some (.integer "i64" 8 true) := rfl
    simp only [LE.wire, e, LE.primOf] at hb
    split at hb
    · rw [← Option.some.inj hb, LE.le_length]
    · simp at hb
  have hrl : req.length = 9 := by
    obtain ⟨-, st, mid, b, g1, rfl, g3, rfl⟩ := hreq
    have e : LE.wire.prim "u8" (.int 255) = some [255] := by decide +kernel
    obtain rfl : st = [255] := (Option.some.inj (e.symm.trans g1)).symm
    simp only [oneArgFn, argsOf, List.map_cons, List.map_nil] at g3
    cases g3 with
    | leaf _ p _ b1 _ _ bs hp hb h =>
      cases h
      obtain rfl := Option.some.inj hp
      simp [hlen _ _ hb]
  have hkl := hlen k bk hk
  have hem : Enc LE.rust.wire twoArgs [.integer "i64" 8 true] [.int m] bm := by
    have := Enc.leaf (W := LE.rust.wire) (S := twoArgs) (.integer "i64" 8 true) "i64" (.int m) bm [] [] [] rfl hm .nil
    rwa [List.append_nil] at this
  obtain ⟨dv, h7, N, h8⟩ := h6 [.int m] bm rest hem (by
      simp only [overwrite, hrl, List.drop_succ_cons, List.append_assoc]
      rw [List.drop_append_of_le_length (by omega), List.drop_of_length_le (by omega)]
      rfl) none none (hU _) ⟨rfl, rfl⟩ ⟨[], rfl, rfl⟩
  cases dv with
  | some d => simp [ExchangedResult] at h7
  | none =>
    refine ⟨N, fun j hj => ?_⟩
    have e : testExt.camel "keep" = "keep" := by decide +kernel
    have := h8 j hj
    simp only [twoArgsFn, oneArgFn, e] at this
    exact this

/-- Arguments as `C95_stale` asks for. -/
example : ∃ bk bm, LE.wire.prim "i64" (.int 5) = some bk ∧ LE.wire.prim "i64" (.int (-6)) = some bm :=
  ⟨[5, 0, 0, 0, 0, 0, 0, 0], [250, 255, 255, 255, 255, 255, 255, 255], by decide +kernel, by decide +kernel⟩

end TPB.Props
