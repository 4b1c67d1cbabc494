import Verif.Proof.EvalKem
/-! # A concrete run of parameter set 2, evaluated by the kernel -/
namespace Verif.Eval

/-- Seeds `01…01`, message `ff…ff`: the matrix needs no further block. -/
theorem enough2 : nenough 2 3 (nrho (packN 8 (List.replicate 32 1)) 2) = true := by decide +kernel

set_option maxRecDepth 100000 in
/-- Seeds `01…01`, message `ff…ff`: decapsulation recovers the message, and the rejection key is a different one. -/
theorem run2 : run 2 3 (packN 8 (List.replicate 32 1)) (packN 8 (List.replicate 32 255)) (packN 8 (List.replicate 32 1)) = true := by decide +kernel

end Verif.Eval
