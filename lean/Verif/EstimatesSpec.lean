import Verif.AsyncCommSpec

/-!
# Specification vocabulary for the estimate of the communication

The field elements of the messages of `preproc` and `garble`, apart from the 8 bytes in front of each vector and the IDs.
-/

namespace Verif

/-- Number of messages of `garble` between all parties: one from everybody to everybody for each random transformation; one to the
leader and one back for each party in each degree reduction. -/
def garbleMsgs (n l nOut nInp : Nat) (kinds : List GateKind) : Nat :=
  ((nOut + l - 1) / l + (nInp + l - 1) / l) * (n * n) + (nOut + nInp) * (2 * n) + kinds.count .and * (4 * n)
    + (kinds.count .xor + kinds.count .inv) * (2 * n)

/-- Number of field elements in the messages of `garble`. -/
def garbleElems (n l K nOut nInp : Nat) (kinds : List GateKind) : Nat :=
  ((nOut + l - 1) / l + (nInp + l - 1) / l) * (n * n * (2 * (2 * K + 1))) + (nOut + nInp) * (2 * n * (2 * K + 1))
    + kinds.count .and * (2 * n * (1 + 3 * (K + 1))) + (kinds.count .xor + kinds.count .inv) * (2 * n * (K + 1))

/-- Number of field elements in the messages of `preproc`: each party deals the batches of the three kinds of shares to everybody,
and two degree reductions for each error. -/
def preprocElems (n rows brows : Nat) (desc : PreProcCount) : Nat :=
  n * n * ((desc.numKeys + desc.randoms + 3 * desc.errors + rows - 1) / rows
    + (desc.zeros + 2 * desc.errors + rows - 1) / rows + (desc.masks + 2 * desc.errors + brows - 1) / brows)
    + 4 * n * desc.errors

end Verif
