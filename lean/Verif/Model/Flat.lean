import Verif.Model.Mat

/-! # Model of element-wise operations that address the flat array -/

namespace Cnine
namespace View

variable {α : Type _}

/-- tensors/TensorView_cumulative_ops.inc:304-315 `add_ReLU(x,alpha)`: `f b` is
`((b>0)+alpha*(b<0))*b`; the loop addresses `arr[i]`, `x.arr[i]` for `i<asize()` whatever the
strides are. -/
def addReLU [Add α] (f : α → α) (r x : View) (m : Buf α) : Res (Buf α) :=
  loop (asize r.dims) m fun i m => updCell (fun a b => a + f b) m (r.off + i) (x.off + i)

/-- tensors/TensorView_cumulative_ops.inc:318-330 `add_ReLU_back(g,x,alpha)`: the body is that of
`add_ReLU` applied to `g`; `x` is not used. -/
def addReLUBack [Add α] (f : α → α) (r g _x : View) (m : Buf α) : Res (Buf α) :=
  addReLU f r g m

end View
end Cnine
