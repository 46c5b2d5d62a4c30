/-
Vocabulary for C176: the distance of two rows under a kernel.
-/
import Verif.Spec.GpError

namespace PyPDP.Spec

/-- standard deviation of the difference of the values at two rows, if `k` is the covariance -/
noncomputable def kernelDistance (k : Kernel) (a b : List ℝ) : ℝ := √(k a a - 2 * k a b + k b b)

end PyPDP.Spec
