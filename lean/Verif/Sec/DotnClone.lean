import Verif.Sec.Dotn
/-
`Convert` (pkg/dotn/dotn.go:132-148) and `Clone` (pkg/dotn/dotn_concurrent.go:61-63) of the property store. Values have no aliases here, so the deep copy
between the two is the identity; that `Clone` reads the store without its lock is not modelled.
-/
namespace Verif.Dotn

mutual
/-- a value of a converted store (dotn.go:134-144): a list is a slice, a map a converted map; the elements of lists stay -/
def V.conv : V → V
  | .array vs => .slice vs
  | .store kvs => .gomap (KVs.conv kvs)
  | .gomap kvs => .gomap (KVs.conv kvs)
  | .scalar n => .scalar n
  | .strmap kvs => .strmap kvs
  | .slice vs => .slice vs
/-- `Convert` (dotn.go:132-148) -/
def KVs.conv : KVs → KVs
  | .nil => .nil
  | .cons k v r => .cons k (V.conv v) (KVs.conv r)
end

/-- `Clone` (dotn_concurrent.go:61-63) -/
def clone (m : KVs) : KVs := m.conv

end Verif.Dotn
