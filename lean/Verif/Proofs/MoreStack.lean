/-
More stack changes nothing: a write of the emitted Rust program or a read of the emitted Dart program that
does not overflow the stack has the same result with more stack.
-/
import Verif.Proofs.Untrusted
import Verif.Proofs.UntrustedDart
import Verif.Sem.DartEval
namespace TPB.Rust
open Spec
section
variable {rt : Runtime}

theorem Le.writeMany {rec rec' : Ty → Val → Res Bytes} (h : ∀ t v, Le (rec t v) (rec' t v)) (ts : List Ty) :
    ∀ vs, Le (Rust.writeMany rec ts vs) (Rust.writeMany rec' ts vs) := by
  induction ts with
  | nil => intro vs; cases vs <;> exact .inr rfl
  | cons t ts ih =>
    intro vs
    cases vs with
    | nil => exact .inr rfl
    | cons v vs => exact (h t v).bind (fun a => (ih _).bind (fun _ => .inr rfl))

theorem Le.writeS {rec rec' : Ty → Val → Res Bytes} (h : ∀ t v, Le (rec t v) (rec' t v)) (env : Env) (s : WriteS) :
    Le (evalWriteS rt rec env s) (evalWriteS rt rec' env s) := by
  cases s with
  | prim m a => cases a <;> exact .inr rfl
  | call a =>
    simp only [evalWriteS]
    split
    · exact h _ _
    · exact .inr rfl

theorem Le.writes {rec rec' : Ty → Val → Res Bytes} (h : ∀ t v, Le (rec t v) (rec' t v)) (env : Env) (ss : List WriteS) :
    Le (evalWrites rt rec env ss) (evalWrites rt rec' env ss) := by
  induction ss with
  | nil => exact .inr rfl
  | cons s ss ih => exact (Le.writeS h env s).bind (fun a => ih.bind (fun _ => .inr rfl))

theorem Le.writeBody {P : Prog} {rec rec' : Ty → Val → Res Bytes} (h : ∀ t v, Le (rec t v) (rec' t v)) (self : String)
    (b : WriteBody) (v : Val) : Le (evalWriteBody rt P rec self b v) (evalWriteBody rt P rec' self b v) := by
  cases b with
  | nop => exact .inr rfl
  | stmts ss =>
    simp only [evalWriteBody]
    split
    · split
      · exact (Le.refl _).bind (fun a => Le.writes h _ _)
      · exact .inr rfl
    · exact .inr rfl
  | matchSelf e arms =>
    simp only [evalWriteBody]
    split
    · split
      · split
        · split
          · exact .inr rfl
          · exact (Le.refl _).bind (fun a => Le.writes h _ _)
        · exact .inr rfl
      · exact .inr rfl
    · exact .inr rfl

theorem writeTy_le {P : Prog} (k : Nat) : ∀ t v, Le (writeTy rt P k t v) (writeTy rt P (k + 1) t v) := by
  induction k with
  | zero => exact fun _ _ => .inl rfl
  | succ k ih =>
    intro t v
    cases t with
    | named id =>
      simp only [writeTy]
      split
      · exact Le.writeBody ih _ _ _
      · exact .inr rfl
    | app c args =>
      simp only [writeTy]
      split
      · exact (Le.refl _).bind (fun a => (Le.refl _).bind (fun b => (Le.writeMany ih _ _).bind (fun _ => .inr rfl)))
      · exact .inr rfl

/-- A write that does not overflow the stack gives the same result with more stack. -/
theorem writeTy_more {P : Prog} {k j : Nat} {t : Ty} {v : Val} (h : writeTy rt P k t v ≠ .error .fuel) (hj : k ≤ j) :
    writeTy rt P j t v = writeTy rt P k t v := by
  obtain ⟨d, rfl⟩ := Nat.le.dest hj
  clear hj
  induction d with
  | zero => rfl
  | succ d ih =>
    rcases writeTy_le (rt := rt) (P := P) (k + d) t v with e | e
    · rw [ih] at e; exact absurd e h
    · rw [← Nat.add_assoc, ← e, ih]

end
end TPB.Rust

namespace TPB.Dart
open Spec

/-- A read that does not overflow the stack gives the same result with more stack. -/
theorem readE_more {rt : Runtime} {P : Prog} {k j : Nat} {e : ReadE} {bs : Bytes} (h : evalReadE rt (readers rt P k) e bs ≠ .error .fuel)
    (hj : k ≤ j) : evalReadE rt (readers rt P j) e bs = evalReadE rt (readers rt P k) e bs :=
  more (fun k => LeR.readE (readers_le (P := P) k) e bs) h hj

end TPB.Dart
