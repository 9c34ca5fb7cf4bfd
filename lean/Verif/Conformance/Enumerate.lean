import Verif.Conformance.Basic
/-!
# The unit tests of `/repo/src/cmds/enumerate.rs`, run on the model

Written by `tools/gen_conformance.py`.  These are tests of the model on literals, not proofs of properties.
-/
set_option maxRecDepth 100000
namespace Ripcalc.Conformance
open Ripcalc

-- lines 93-111
example : (NetworkIter.new (net4 (chars! "192.0.2.64") 28) >>= fun it => it.nexts .checked 18) = .ok
    [(some (ip4 (chars! "192.0.2.64"))),
      (some (ip4 (chars! "192.0.2.65"))),
      (some (ip4 (chars! "192.0.2.66"))),
      (some (ip4 (chars! "192.0.2.67"))),
      (some (ip4 (chars! "192.0.2.68"))),
      (some (ip4 (chars! "192.0.2.69"))),
      (some (ip4 (chars! "192.0.2.70"))),
      (some (ip4 (chars! "192.0.2.71"))),
      (some (ip4 (chars! "192.0.2.72"))),
      (some (ip4 (chars! "192.0.2.73"))),
      (some (ip4 (chars! "192.0.2.74"))),
      (some (ip4 (chars! "192.0.2.75"))),
      (some (ip4 (chars! "192.0.2.76"))),
      (some (ip4 (chars! "192.0.2.77"))),
      (some (ip4 (chars! "192.0.2.78"))),
      (some (ip4 (chars! "192.0.2.79"))),
      none,
      none] :=
  by decide +kernel

-- lines 113-131
example : (NetworkIter.new (net6 (chars! "2001:db8::10") 124) >>= fun it => it.nexts .checked 18) = .ok
    [(some (ip6 (chars! "2001:db8::10"))),
      (some (ip6 (chars! "2001:db8::11"))),
      (some (ip6 (chars! "2001:db8::12"))),
      (some (ip6 (chars! "2001:db8::13"))),
      (some (ip6 (chars! "2001:db8::14"))),
      (some (ip6 (chars! "2001:db8::15"))),
      (some (ip6 (chars! "2001:db8::16"))),
      (some (ip6 (chars! "2001:db8::17"))),
      (some (ip6 (chars! "2001:db8::18"))),
      (some (ip6 (chars! "2001:db8::19"))),
      (some (ip6 (chars! "2001:db8::1a"))),
      (some (ip6 (chars! "2001:db8::1b"))),
      (some (ip6 (chars! "2001:db8::1c"))),
      (some (ip6 (chars! "2001:db8::1d"))),
      (some (ip6 (chars! "2001:db8::1e"))),
      (some (ip6 (chars! "2001:db8::1f"))),
      none,
      none] :=
  evalV6 (fun i => (@NetworkIter.new V6 i _ >>= fun it => @NetworkIter.nexts V6 i .checked 18 it) = .ok _) (by decide +kernel)

-- lines 136-154
example : (NetworkIter.new (netm4 (chars! "192.64.2.0") (chars! "255.240.255.255")) >>= fun it => it.nexts .checked 18) = .ok
    [(some (ip4 (chars! "192.64.2.0"))),
      (some (ip4 (chars! "192.65.2.0"))),
      (some (ip4 (chars! "192.66.2.0"))),
      (some (ip4 (chars! "192.67.2.0"))),
      (some (ip4 (chars! "192.68.2.0"))),
      (some (ip4 (chars! "192.69.2.0"))),
      (some (ip4 (chars! "192.70.2.0"))),
      (some (ip4 (chars! "192.71.2.0"))),
      (some (ip4 (chars! "192.72.2.0"))),
      (some (ip4 (chars! "192.73.2.0"))),
      (some (ip4 (chars! "192.74.2.0"))),
      (some (ip4 (chars! "192.75.2.0"))),
      (some (ip4 (chars! "192.76.2.0"))),
      (some (ip4 (chars! "192.77.2.0"))),
      (some (ip4 (chars! "192.78.2.0"))),
      (some (ip4 (chars! "192.79.2.0"))),
      none,
      none] :=
  by decide +kernel

-- lines 156-174
example : (NetworkIter.new (netm6 (chars! "2001:db8::1042") (chars! "ffff:ffff:ffff:ffff:ffff:ffff:ffff:f0ff")) >>= fun it => it.nexts .checked 18) = .ok
    [(some (ip6 (chars! "2001:db8::1042"))),
      (some (ip6 (chars! "2001:db8::1142"))),
      (some (ip6 (chars! "2001:db8::1242"))),
      (some (ip6 (chars! "2001:db8::1342"))),
      (some (ip6 (chars! "2001:db8::1442"))),
      (some (ip6 (chars! "2001:db8::1542"))),
      (some (ip6 (chars! "2001:db8::1642"))),
      (some (ip6 (chars! "2001:db8::1742"))),
      (some (ip6 (chars! "2001:db8::1842"))),
      (some (ip6 (chars! "2001:db8::1942"))),
      (some (ip6 (chars! "2001:db8::1a42"))),
      (some (ip6 (chars! "2001:db8::1b42"))),
      (some (ip6 (chars! "2001:db8::1c42"))),
      (some (ip6 (chars! "2001:db8::1d42"))),
      (some (ip6 (chars! "2001:db8::1e42"))),
      (some (ip6 (chars! "2001:db8::1f42"))),
      none,
      none] :=
  evalV6 (fun i => (@NetworkIter.new V6 i _ >>= fun it => @NetworkIter.nexts V6 i .checked 18 it) = .ok _) (by decide +kernel)

end Ripcalc.Conformance
