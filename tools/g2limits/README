Scripts that found the remainders of the expansions of the second-order loop
kernels (property C69) and wrote the files lean/Verif/Proofs/Gamma2Form.lean,
Gamma2Low.lean, Gamma2High.lean, Gamma2RegPoly.lean, Gamma2Reg.lean,
Gamma2CollD.lean, Gamma2CollT.lean, Gamma2ElongD.lean, Gamma2ElongT.lean.
They only produce text; every identity is checked by Lean.
