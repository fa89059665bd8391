import Verif.Lemmas.Cells
import Verif.Model.IntOps

/-!
# Running `VM` code step by step

Rewriting lemmas; they keep the kernel from unfolding the byte-level definitions.
-/

namespace Pywasm.VM

theorem bind_eq {α β} {m : VM α} {f : α → VM β} {s a s'} (h : m s = .ok a s') : (m >>= f) s = f a s' := by
  show EStateM.bind m f s = _
  unfold EStateM.bind; rw [h]
theorem bind_error {α β} {m : VM α} {f : α → VM β} {s e s'} (h : m s = .error e s') : (m >>= f) s = .error e s' := by
  show EStateM.bind m f s = _
  unfold EStateM.bind; rw [h]
theorem lift_ok {α} {e : Except Err α} {a : α} (h : e = .ok a) {s : List Val} : VM.lift e s = .ok a s := by
  subst h; rfl
theorem lift_error {α} {e : Except Err α} {x : Err} (h : e = .error x) {s : List Val} :
    (VM.lift e : VM α) s = .error x s := by subst h; rfl
theorem push_eq (v : Val) (s : List Val) : VM.push v s = .ok () (v :: s) := rfl
theorem pop_cons (v : Val) (s : List Val) : VM.pop (v :: s) = .ok v s := rfl
theorem popI32_cons (v : Val) (s : List Val) : VM.popI32 (v :: s) = .ok v.low32.toInt s := by
  rw [← Val.intoI32_eq]; rfl
theorem popI64_cons (v : Val) (s : List Val) : VM.popI64 (v :: s) = .ok v.low64.toInt s := by
  rw [← Val.intoI64_eq]; rfl
theorem popU32_cons (v : Val) (s : List Val) : VM.popU32 (v :: s) = .ok (v.low32.toNat : Int) s := by
  rw [← Val.intoU32_eq]; rfl
theorem popU64_cons (v : Val) (s : List Val) : VM.popU64 (v :: s) = .ok (v.low64.toNat : Int) s := by
  rw [← Val.intoU64_eq]; rfl

end Pywasm.VM
