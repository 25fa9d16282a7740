/- Empty lines of the server and of the client do not matter when they run together. -/
import Verif.Proofs.DartRpcTrim
import Verif.Proofs.RustRpcTrim
import Verif.Proofs.RustActs
namespace TPB.Rpc
open Spec
open Rust (Buf Bufs BufLib User setMem act acts Act Ev Cfg Handler Codec Tidys)
open Dart (ClientState trimTasks)

variable {σ : Type}

def Sys.trim (s : Sys σ) : Sys σ := ⟨s.server.trim, s.client.mapTasks trimTasks, s.calls⟩

section
variable {C : Codec} {lib : BufLib} {U : User σ} {regs : List (Nat × Handler)}
variable {rt : Dart.Runtime} {P : Dart.Prog} {k : Nat} {hd : Int} {rot : Int → Int} {cl : Dart.Client}

theorem start_trim (mem : Nat → Bufs) (u : σ) :
    start lib rt P k hd rot cl.trim mem u = (start lib rt P k hd rot cl mem u).map Sys.trim := by
  unfold start
  rw [Dart.create_trim]
  cases Dart.Client.create rt P k hd rot cl lib (fun _ (_ : Unit) => .error .stuck) mem () <;> rfl

theorem read_trim {regs' : List (Nat × Handler)} (s : Sys σ) (v : String) :
    sysAct C lib U regs' rt P k hd rot cl.trim s.trim (.read v) = (sysAct C lib U regs rt P k hd rot cl s (.read v)).map Sys.trim := by
  simp only [sysAct]
  show (match (trimTasks s.client.tasks).lookup v with | some t => _ | none => none) = _
  rw [Dart.trimTasks_lookup]
  cases s.client.tasks.lookup v with
  | none => rfl
  | some t =>
    show (match Dart.runTask rt P k hd cl.trim t.trim s.server.mem (s.client.mapTasks trimTasks) with | .ok c => _ | .error _ => none) = _
    rw [Dart.runTask_trim]
    simp only
    cases Dart.runTask rt P k hd cl t s.server.mem s.client <;> rfl

theorem call_step_trim {regs' : List (Nat × Handler)} (s : Sys σ) (name : String) (ds : List Val) :
    sysAct C lib U regs' rt P k hd rot cl.trim s.trim (.call name ds) = (sysAct C lib U regs rt P k hd rot cl s (.call name ds)).map Sys.trim := by
  simp only [sysAct]
  have := Dart.call_trim rt P k hd rot cl lib (fun _ (_ : Unit) => .error .stuck) name ds ⟨s.client, s.server.mem, [], ()⟩
  rw [show (⟨s.trim.client, s.trim.server.mem, [], ()⟩ : Dart.World Unit) = Dart.World.mapTasks trimTasks ⟨s.client, s.server.mem, [], ()⟩ from rfl, this]
  cases Dart.callMethod rt P k hd rot cl lib (fun _ (_ : Unit) => .error .stuck) name ds ⟨s.client, s.server.mem, [], ()⟩ with
  | error e => rfl
  | ok p => obtain ⟨r, w⟩ := p; cases r <;> rfl

theorem sysActs_then (s : Sys σ) (xs ys : List SysAct) :
    sysActs C lib U regs rt P k hd rot cl s (xs ++ ys) = (sysActs C lib U regs rt P k hd rot cl s xs).bind (fun s => sysActs C lib U regs rt P k hd rot cl s ys) := by
  induction xs generalizing s with
  | nil => rfl
  | cons x xs ih =>
    simp only [List.cons_append, sysActs]
    cases sysAct C lib U regs rt P k hd rot cl s x with
    | none => rfl
    | some s => exact ih s

theorem sysActs_serves : ∀ (xs : List Act) (s : Sys σ) (c : Cfg σ), acts C lib U regs s.server xs = some c →
    sysActs C lib U regs rt P k hd rot cl s (xs.map .server) = some { s with server := c }
  | [], s, c, h => by
    simp only [acts, Option.some.injEq] at h
    subst h
    rfl
  | x :: xs, s, c, h => by
    simp only [acts] at h
    simp only [List.map_cons, sysActs, sysAct]
    cases ha : act C lib U regs s.server x with
    | none => rw [ha] at h; simp at h
    | some c' =>
      rw [ha] at h
      exact sysActs_serves xs { s with server := c' } c h

theorem countP_server (n : String) : ∀ xs : List Act, (xs.map SysAct.server).countP (SysAct.isCall n) = 0 := by
  intro xs
  rw [List.countP_eq_zero]
  intro a ha
  obtain ⟨x, _, rfl⟩ := List.mem_map.1 ha
  simp [SysAct.isCall]

/-- A history without empty lines is one with them, up to steps that pass them. -/
theorem sysActs_trim (hregs : ∀ x ∈ regs, Tidys x.2.body) : ∀ (xs : List SysAct) (s d : Sys σ), s.server.Tidy →
    sysActs C lib U (regs.map (fun p => (p.1, p.2.trim))) rt P k hd rot cl.trim s.trim xs = some d →
    ∃ ys d', (∀ y ∈ ys, y ∈ xs ∨ y.IsStep) ∧ (∀ n, ys.countP (SysAct.isCall n) = xs.countP (SysAct.isCall n)) ∧
      sysActs C lib U regs rt P k hd rot cl s ys = some d' ∧ d'.trim = d ∧ d'.server.Tidy
  | [], s, d, hs, h => by
    simp only [sysActs, Option.some.injEq] at h
    exact ⟨[], s, by simp, fun _ => rfl, rfl, h, hs⟩
  | x :: xs, s, d, hs, h => by
    simp only [sysActs] at h
    cases hx : sysAct C lib U (regs.map (fun p => (p.1, p.2.trim))) rt P k hd rot cl.trim s.trim x with
    | none => rw [hx] at h; simp at h
    | some s1 =>
      rw [hx] at h
      have key : ∃ ys s1', (∀ y ∈ ys, y = x ∨ y.IsStep) ∧ (∀ n, ys.countP (SysAct.isCall n) = [x].countP (SysAct.isCall n)) ∧
          sysActs C lib U regs rt P k hd rot cl s ys = some s1' ∧ s1'.trim = s1 ∧ s1'.server.Tidy := by
        cases x with
        | server a =>
          simp only [sysAct] at hx
          split at hx
          · next c hc =>
            obtain ⟨ys, c', h1, h2, h3, h4⟩ := Rust.act_trim hregs hs hc
            simp only [Option.some.injEq] at hx
            subst hx
            refine ⟨ys.map .server, { s with server := c' }, ?_, ?_, sysActs_serves ys s c' h2, ?_, h4⟩
            · intro y hy
              obtain ⟨a', ha', rfl⟩ := List.mem_map.1 hy
              rcases h1 a' ha' with rfl | h1
              · exact .inl rfl
              · exact .inr h1
            · intro n
              rw [countP_server]
              rfl
            · simp only [Sys.trim, h3]
          · simp at hx
        | call n ds =>
          rw [call_step_trim (regs := regs)] at hx
          obtain ⟨s', h1, h2⟩ := Option.map_eq_some_iff.1 hx
          refine ⟨[.call n ds], s', by simp, fun _ => rfl, by simp only [sysActs, h1], h2, ?_⟩
          simp only [sysAct] at h1
          split at h1
          · simp only [Option.some.injEq] at h1
            subst h1
            exact hs
          · simp at h1
        | read v =>
          rw [read_trim (regs := regs)] at hx
          obtain ⟨s', h1, h2⟩ := Option.map_eq_some_iff.1 hx
          refine ⟨[.read v], s', by simp, fun _ => rfl, by simp only [sysActs, h1], h2, ?_⟩
          simp only [sysAct] at h1
          split at h1
          · split at h1
            · simp only [Option.some.injEq] at h1
              subst h1
              exact hs
            · simp at h1
          · simp at h1
      obtain ⟨ys, s1', h1, h2, h3, rfl, h4⟩ := key
      obtain ⟨zs, d', h5, h6, h7, h8, h9⟩ := sysActs_trim hregs xs s1' d h4 h
      refine ⟨ys ++ zs, d', ?_, ?_, ?_, h8, h9⟩
      · intro y hy
        rcases List.mem_append.1 hy with hy | hy
        · rcases h1 y hy with rfl | h1
          · exact .inl (List.mem_cons_self ..)
          · exact .inr h1
        · exact (h5 y hy).imp (List.mem_cons_of_mem _) id
      · intro n
        rw [List.countP_append, h2, h6, ← List.countP_append]
        rfl
      · rw [sysActs_then, h3]
        exact h7

end

end TPB.Rpc
