/-!
# Mixed-radix digits (specification vocabulary)

`digit ns k i` is digit `i` of `k` in the mixed radix system whose digit `i` has base `ns[i]`,
digit `0` being the least significant ("fastest varying") one.
-/

namespace Modepy.Spec

/-- Digit `i` of `k` in mixed radix `ns`, least significant digit first. -/
def digit (ns : List Nat) (k i : Nat) : Nat := (k / (ns.take i).prod) % ns.getD i 1

end Modepy.Spec
