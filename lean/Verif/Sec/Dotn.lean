/-
The property store addressed by dotted paths: pkg/dotn/dotn.go.

Simplifications: Go maps are association lists with an arbitrary but fixed order of iteration; values
have no aliases, so that updating a nested map in place is replacing it. `strconv.ParseInt(p, 0, 8)`
is a parameter.
-/
import Verif.Base

namespace Verif.Dotn

/-- texts -/
abbrev Str := List Char

mutual
/-- Values. Values of a store (pkg/dotn/dotn.go:22, pkg/dotn/dotn.go:23). -/
inductive V where
  /-- anything that is not one of the below -/
  | scalar (n : Nat)
  /-- `store` -/
  | store (kvs : KVs)
  /-- `map[string]interface{}` -/
  | gomap (kvs : KVs)
  /-- `map[string]string` (its values as scalars) -/
  | strmap (kvs : KVs)
  /-- `array` -/
  | array (vs : Vs)
  /-- `[]interface{}` -/
  | slice (vs : Vs)
/-- a Go map in its order of iteration (pkg/dotn/dotn.go:22) -/
inductive KVs where
  | nil
  | cons (k : Str) (v : V) (rest : KVs)
/-- a Go slice (pkg/dotn/dotn.go:23) -/
inductive Vs where
  | nil
  | cons (v : V) (rest : Vs)
end

mutual
/-- equality of values; models no code -/
def V.beq : V → V → Bool
  | .scalar a, .scalar b => a == b
  | .store a, .store b => KVs.beq a b
  | .gomap a, .gomap b => KVs.beq a b
  | .strmap a, .strmap b => KVs.beq a b
  | .array a, .array b => Vs.beq a b
  | .slice a, .slice b => Vs.beq a b
  | _, _ => false
/-- equality of maps; models no code -/
def KVs.beq : KVs → KVs → Bool
  | .nil, .nil => true
  | .cons k v r, .cons k' v' r' => k == k' && V.beq v v' && KVs.beq r r'
  | _, _ => false
/-- equality of slices; models no code -/
def Vs.beq : Vs → Vs → Bool
  | .nil, .nil => true
  | .cons v r, .cons v' r' => V.beq v v' && Vs.beq r r'
  | _, _ => false
end

/-- `m[k]`. (pkg/dotn/dotn.go:29-77) -/
def KVs.get : KVs → Str → Option V
  | .nil, _ => none
  | .cons k v r, p => if k = p then some v else r.get p

/-- `m[k] = v`. (pkg/dotn/dotn.go:79-129) -/
def KVs.put : KVs → Str → V → KVs
  | .nil, p, x => .cons p x .nil
  | .cons k v r, p, x => if k = p then .cons k x r else .cons k v (r.put p x)

/-- `a[i]` (pkg/dotn/dotn.go:29-77) -/
def Vs.get : Vs → Nat → Option V
  | .nil, _ => none
  | .cons v _, 0 => some v
  | .cons _ r, n + 1 => r.get n

/-- `append` (pkg/dotn/dotn.go:79-129) -/
def Vs.append : Vs → Vs → Vs
  | .nil, w => w
  | .cons v r, w => .cons v (r.append w)

/-- `len` (pkg/dotn/dotn.go:29-77) -/
def Vs.length : Vs → Nat
  | .nil => 0
  | .cons _ r => r.length + 1

/-- `strings.Split(s, ".")`. -/
def split : Str → List Str
  | [] => [[]]
  | c :: s => if c = '.' then [] :: split s else
    match split s with
    | [] => [[c]]
    | p :: ps => (c :: p) :: ps

/-- `strings.ReplaceAll(key, "\\.", "\x00")`. -/
def escape : Str → Str
  | [] => []
  | ['\\'] => ['\\']
  | '\\' :: '.' :: s => '\x00' :: escape s
  | c :: s => c :: escape s

/-- `strings.ReplaceAll(p, "\x00", ".")`. -/
def unNul (s : Str) : Str := s.map fun c => if c = '\x00' then '.' else c

/-- `strings.ReplaceAll(k, ".", "\x00")`. -/
def nul (s : Str) : Str := s.map fun c => if c = '.' then '\x00' else c

/-- the result of pkg/dotn/dotn.go:29-77 -/
inductive Got where
  | found (v : V)
  | missing
  | panic

/-- The conversions of the final value (dotn.go:64-71). -/
def outward : V → V
  | .array vs => .slice vs
  | .store kvs => .gomap kvs
  | v => v

/-- The loop of `Get` (dotn.go:34-75). An index that does not parse or is too big is skipped
(`continue`); a negative index is used as it is. -/
def getLoop (parseInt : Str → Option Int) : V → List Str → Got
  | _, [] => .missing
  | value, p :: ps =>
    let next (v : V) : Got := match ps with
      | [] => .found (outward v)
      | _ => getLoop parseInt v ps
    match value with
    | .store kvs => match kvs.get p with
      | some v => next v
      | none => .missing
    | .gomap kvs => match kvs.get p with
      | some v => next v
      | none => .missing
    | .strmap kvs => match kvs.get p with
      | some v => next v
      | none => .missing
    | .array vs => match parseInt p with
      | none => getLoop parseInt value ps
      | some i =>
        if (vs.length : Int) < i + 1 then getLoop parseInt value ps
        else if i < 0 then .panic
        else match vs.get i.toNat with
          | some v => next v
          | none => .panic
    | _ => .missing

/-- `Get` (dotn.go:27-76). -/
def get (parseInt : Str → Option Int) (m : KVs) (key : Str) : Got :=
  getLoop parseInt (.store m) ((split (escape key)).map unNul)

/-- The walk of `Set` to the last piece (dotn.go:83-128): missing maps are created, and a value that
is not a map is not entered (the walk stays where it is); `f` is applied where it ends. -/
def walk (f : KVs → Str → KVs) : KVs → List Str → KVs
  | m, [] => m
  | m, p :: ps => match ps with
    | [] => f m p
    | _ => match m.get p with
      | none => m.put p (.store (walk f .nil ps))
      | some (.store s) => m.put p (.store (walk f s ps))
      | some (.gomap s) => m.put p (.gomap (walk f s ps))
      | some _ => walk f m ps

/-- What happens at the end for a value that is not a map (dotn.go:89-97, 108-121). -/
def setLast (v : V) (m : KVs) (p : Str) : KVs := match v with
  | .slice vs => match m.get p with
    | none => m.put p (.array vs)
    | some (.array ws) => m.put p (.array (ws.append vs))
    | some _ => m
  | v => m.put p v

/-- The first step for a map value: an absent entry is created (dotn.go:92-94). -/
def create (m : KVs) (p : Str) : KVs := match m.get p with
  | none => m.put p (.store .nil)
  | some _ => m

mutual
/-- `Set` on the pieces of a path (dotn.go:78-130). For a map value it calls itself from the root for
every entry, with the dots in the entry's name hidden. -/
def setPieces (root : KVs) (pieces : List Str) : V → KVs
  | .gomap kvs => setAll (walk create root (pieces.map unNul)) pieces kvs
  | v => walk (setLast v) root (pieces.map unNul)
/-- the loop over a map value in pkg/dotn/dotn.go:79-129 -/
def setAll (root : KVs) (pieces : List Str) : KVs → KVs
  | .nil => root
  | .cons k v rest => setAll (setPieces root (pieces ++ [nul k]) v) pieces rest
end

/-- `Set` (dotn.go:78-130). -/
def set (m : KVs) (key : Str) (v : V) : KVs := setPieces m (split key) v

end Verif.Dotn
