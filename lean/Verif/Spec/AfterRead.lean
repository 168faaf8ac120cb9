import Verif.Spec.Session

/-!
# Specification: what `read_boozmn` replaces
-/

namespace Booz.Spec
variable {α : Type} [Arith α]

/-- The objects agree on everything a boozmn file says about an equilibrium and its transformation. -/
structure SameBoozmn (a b : St α) : Prop where
  asym : a.inp.asym = b.inp.asym
  nfp : a.inp.nfp = b.inp.nfp
  mboz : a.inp.mboz = b.inp.mboz
  nboz : a.inp.nboz = b.inp.nboz
  ns_in : a.inp.ns_in = b.inp.ns_in
  iota : a.inp.iota = b.inp.iota
  compute_surfs : a.inp.compute_surfs = b.inp.compute_surfs
  toroidal_flux : a.inp.toroidal_flux = b.inp.toroidal_flux
  flux : a.flux = b.flux
  mnboz : a.out.mnboz = b.out.mnboz
  ns_b : a.out.ns_b = b.out.ns_b
  xm_b : a.out.xm_b = b.out.xm_b
  xn_b : a.out.xn_b = b.out.xn_b
  boozer_G_all : a.out.boozer_G_all = b.out.boozer_G_all
  boozer_I_all : a.out.boozer_I_all = b.out.boozer_I_all
  spec : a.out.spec = b.out.spec
  s_b : a.out.s_b = b.out.s_b

/-- The inputs with the field periods, the resolution, the surfaces, iota and the toroidal flux of
another object. -/
def grafted (I J : Inputs α) : Inputs α := { I with
  asym := J.asym, nfp := J.nfp, mboz := J.mboz, nboz := J.nboz, ns_in := J.ns_in, iota := J.iota
  compute_surfs := J.compute_surfs, toroidal_flux := J.toroidal_flux }

end Booz.Spec
