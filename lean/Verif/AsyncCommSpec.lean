import Verif.AsyncNetSpec
import Verif.AsyncProto
import Verif.Garble

/-!
# Specification vocabulary for the amount of communication
-/

namespace Verif

/-- A vector is encoded as its length (8 bytes) and `B` bytes for each element. -/
def Codec.Width {F : Type} (c : Codec F) (B : Nat) : Prop := ∀ v : List F, (c.enc v).length = 8 + B * v.length

/-- Who sends how many field elements to whom in one protocol run. -/
inductive Pattern
  /-- Every party sends one vector of `k` elements to every party. -/
  | all (k : Nat)
  /-- Every party sends one vector of `k` elements to party `L`, which sends one of the same length to every party. -/
  | via (L k : Nat)
deriving DecidableEq

/-- The numbers of elements in the messages from `p` to `q`. -/
def Pattern.elems (p q : Nat) : Pattern → List Nat
  | .all k => [k]
  | .via L k => (if q = L then [k] else []) ++ if p = L then [k] else []

/-- The messages of a protocol run have the lengths of a pattern. -/
def Proto.Follows {O : Type} (n B : Nat) (P : Proto O) (envs : Nat → Env O) (s : Pattern) : Prop :=
  ∀ p < n, ∀ q < n, (P.between n envs p q).map List.length = (s.elems p q).map fun k => 8 + B * k

/-- The messages of each job have the lengths of the corresponding pattern. -/
def JobsFollow {O : Type} (n B : Nat) (jobs : List (Job O)) (outs : List (List O)) (ss : List Pattern) : Prop :=
  ss.length = jobs.length ∧ ∀ (j : Nat) (job : Job O) (s : Pattern), jobs[j]? = some job → ss[j]? = some s →
    job.proto.Follows n B (seqEnv outs job.deps) s

/-- The patterns of `preproc`: `rand`, `zero` and `randbit` with so many batches, and two multiplications for each party as
leader, with batches of the sizes `sizes`. -/
def preprocPatterns (br bz bb : Nat) (sizes : List Nat) : List Pattern :=
  [.all br, .all bz, .all bb] ++ sizes.zipIdx.flatMap fun s => [.via s.2 s.1, .via s.2 s.1]

/-- Number of errors for which party `p` is the leader: the last one gets the remainder. -/
def errShare (errors n p : Nat) : Nat := if p + 1 < n then errors / n else errors - (n - 1) * (errors / n)

/-- Number of bytes which tell `num` children of a protocol ID apart. -/
def idBytes (num : Nat) : Nat := (Nat.clog 2 num + 7) / 8

/-- The communication of `preproc` from `p` to `q`, without and with the IDs, for matrices with `rows` and `brows` rows: seven
messages with 8 bytes each in front, and `B` bytes for each field element. -/
def preprocBytes (n B rows brows a : Nat) (desc : PreProcCount) (p q : Nat) : Nat × Nat :=
  let elems := (desc.numKeys + desc.randoms + 3 * desc.errors + rows - 1) / rows
    + (desc.zeros + 2 * desc.errors + rows - 1) / rows + (desc.masks + 2 * desc.errors + brows - 1) / brows
    + 2 * errShare desc.errors n p + 2 * errShare desc.errors n q
  (56 + B * elems, 56 + B * elems + 7 * (a + idBytes (4 + 2 * n)))

/-- Numbers of elements of the multiplications of a gate. -/
def GateKind.mults (keyLen : Nat) : GateKind → List Nat
  | .and => [1, 3 * (keyLen + 1)]
  | .xor => [keyLen + 1]
  | .inv => [keyLen + 1]

/-- The lengths of the IDs of the multiplications of a gate whose ID has `s` bytes. -/
def GateKind.idLens (s : Nat) : GateKind → List Nat
  | .and => [s + 1, s]
  | .xor => [s]
  | .inv => [s]

/-- The lengths of the IDs of `garble`, called with an ID of `a` bytes. -/
def garbleIdLens (a l nOut nInp : Nat) (kinds : List GateKind) : List Nat :=
  List.replicate ((nOut + l - 1) / l) (a + idBytes (4 + kinds.length) + idBytes ((nOut + l - 1) / l)) ++
  List.replicate ((nInp + l - 1) / l) (a + idBytes (4 + kinds.length) + idBytes ((nInp + l - 1) / l)) ++
  List.replicate nOut (a + idBytes (4 + kinds.length) + idBytes nOut) ++
  List.replicate nInp (a + idBytes (4 + kinds.length) + idBytes nInp) ++
  kinds.flatMap (GateKind.idLens (a + idBytes (4 + kinds.length)))

/-- Number of bytes which `p` sends to `q` in one protocol run, without and with an ID of `a` bytes for each message. -/
def Pattern.bytes (B a p q : Nat) (s : Pattern) : Nat × Nat :=
  (((s.elems p q).map fun k => 8 + B * k).sum, ((s.elems p q).map fun k => 8 + B * k + a).sum)

/-- The patterns of `garble` with `nOut` blocks of wires, `nInp` blocks of gate inputs and gates of the kinds `kinds`, given
the IDs; `lead` gives the leader for an ID. -/
def garblePatterns (n l keyLen nOut nInp : Nat) (kinds : List GateKind) (lead : ProtocolID → Nat) :
    List (ProtocolID → Pattern) :=
  List.replicate ((nOut + l - 1) / l) (fun _ => .all (2 * (2 * keyLen + 1))) ++
  List.replicate ((nInp + l - 1) / l) (fun _ => .all (2 * (2 * keyLen + 1))) ++
  (List.range nOut).map (fun i _ => .via (i % n) (2 * keyLen + 1)) ++
  (List.range nInp).map (fun i _ => .via (i % n) (2 * keyLen + 1)) ++
  (kinds.flatMap (GateKind.mults keyLen)).map (fun k id => .via (lead id) k)

/-- The communication of `garble`, called with an ID of `a` bytes, between all pairs of parties, without and with the IDs: the
random transformations, the transformations, the AND gates and the other gates. -/
def garbleBytes (n l B K a nOut nInp : Nat) (kinds : List GateKind) : Nat × Nat :=
  (((nOut + l - 1) / l + (nInp + l - 1) / l) * (n * n * (8 + 2 * B * (2 * K + 1)))
      + (nOut + nInp) * (2 * n * (8 + B * (2 * K + 1)))
      + kinds.count .and * (2 * n * (16 + B * (1 + 3 * (K + 1))))
      + (kinds.count .xor + kinds.count .inv) * (2 * n * (8 + B * (K + 1))),
   ((nOut + l - 1) / l) * (n * n * (8 + 2 * B * (2 * K + 1) + (a + idBytes (4 + kinds.length) + idBytes ((nOut + l - 1) / l))))
      + ((nInp + l - 1) / l) * (n * n * (8 + 2 * B * (2 * K + 1) + (a + idBytes (4 + kinds.length) + idBytes ((nInp + l - 1) / l))))
      + nOut * (2 * n * (8 + B * (2 * K + 1) + (a + idBytes (4 + kinds.length) + idBytes nOut)))
      + nInp * (2 * n * (8 + B * (2 * K + 1) + (a + idBytes (4 + kinds.length) + idBytes nInp)))
      + kinds.count .and * (2 * n * (16 + B * (1 + 3 * (K + 1)) + (2 * (a + idBytes (4 + kinds.length)) + 1)))
      + (kinds.count .xor + kinds.count .inv) * (2 * n * (8 + B * (K + 1) + (a + idBytes (4 + kinds.length)))))

end Verif
