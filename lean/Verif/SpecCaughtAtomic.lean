import Verif.SpecAtomic
/-!
# Specification of an atomic cell whose operations may panic
-/

namespace OrdinalMap

variable {T τ : Type}

/-- The operation computes ordinals before it takes effect. -/
def AtomicOp.panicsBefore : AtomicOp τ → Bool
  | .load _ => false
  | _ => true

/-- The operation makes a value after it has taken effect. -/
def AtomicOp.panicsAfter : AtomicOp τ → Bool
  | .store _ _ => false
  | _ => true

/-- As `Legal`: each operation that returns takes effect on the cell at one moment between its call and its return, and
returns what the cell said at that moment.  If `can`, operations may also panic: `store` and `compare_exchange` without
having taken effect, `load` and `compare_exchange` after they have taken effect. -/
inductive LegalOrPanics [DecidableEq T] [DecidableEq τ] (can : Prop) :
    τ → (T → LinState τ) → List (AtomicEv T τ) → Prop
  | nil (v : τ) (st : T → LinState τ) : LegalOrPanics can v st []
  | inv {v : τ} {st : T → LinState τ} {es : List (AtomicEv T τ)} (t : T) (op : AtomicOp τ)
      (h : st t = .idle) (hes : LegalOrPanics can v (setAt st t (.pending op)) es) :
      LegalOrPanics can v st (.inv t op :: es)
  | lin {v : τ} {st : T → LinState τ} {es : List (AtomicEv T τ)} (t : T) (op : AtomicOp τ)
      (h : st t = .pending op)
      (hes : LegalOrPanics can (AtomicSpec.step v op).2 (setAt st t (.done op (AtomicSpec.step v op).1)) es) :
      LegalOrPanics can v st (.lin t op :: es)
  | res {v : τ} {st : T → LinState τ} {es : List (AtomicEv T τ)} (t : T) (op : AtomicOp τ)
      (out : R (AtomicOut τ)) (h : st t = .done op out) (hes : LegalOrPanics can v (setAt st t .idle) es) :
      LegalOrPanics can v st (.res t op out :: es)
  | before {v : τ} {st : T → LinState τ} {es : List (AtomicEv T τ)} (t : T) (op : AtomicOp τ) (hc : can)
      (ho : op.panicsBefore = true) (h : st t = .pending op) (hes : LegalOrPanics can v (setAt st t .idle) es) :
      LegalOrPanics can v st (.res t op (.error .panic) :: es)
  | after {v : τ} {st : T → LinState τ} {es : List (AtomicEv T τ)} (t : T) (op : AtomicOp τ) (out : R (AtomicOut τ))
      (hc : can) (ho : op.panicsAfter = true) (h : st t = .done op out)
      (hes : LegalOrPanics can v (setAt st t .idle) es) : LegalOrPanics can v st (.res t op (.error .panic) :: es)

end OrdinalMap
