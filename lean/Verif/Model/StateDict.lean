import Verif.Model.KernelInstances

/-! # Model of saving and restoring kernels: `Module.state_dict`, `Module.load_state_dict`

`GroupKernel.__init__` registers `grid_H`, `grid_Rn` and `mask` as buffers (kernel.py:102-105); everything else
(`sample_H_kwargs` with the width, kernel.py:113, among them) is a plain attribute and not part of the state.  The
parameters are explicit arguments of the models of `forward` (`Model/Kernel.lean`); `load_state_dict` sets them to the
saved values. -/

namespace GConv

/-- the buffers in the state of a kernel; a buffer that is `None` is not part of it (torch). -/
structure KernelState (G : Type) (d : ℕ) where
  gridH : Tensor G
  gridRn : Tensor (Fin d → ℝ)
  mask : Option (Tensor ℝ)

namespace GroupKernel
variable {G : Type} {d : ℕ}

/-- `kernel.state_dict()`, buffers registered in kernel.py:102-105. -/
def state (K : GroupKernel G d) : KernelState G d := ⟨K.gridH, K.gridRn, K.mask⟩

/-- `kernel.load_state_dict(st)` (torch, `strict=True`): RuntimeError for a tensor of another shape and for a missing or
unexpected `mask`; otherwise the buffers get the saved values and every other attribute stays as it is. -/
def loadState (K : GroupKernel G d) (st : KernelState G d) : Except PyErr (GroupKernel G d) :=
  if K.gridH.shape = st.gridH.shape ∧ K.gridRn.shape = st.gridRn.shape ∧
      K.mask.map Tensor.shape = st.mask.map Tensor.shape then
    .ok { K with gridH := st.gridH, gridRn := st.gridRn, mask := st.mask }
  else .error .runtimeError

end GroupKernel
end GConv
