import Verif.Conformance.Basic
/-!
# The unit tests of `/repo/src/cmds/derange.rs`, run on the model

Written by `tools/gen_conformance.py`.  These are tests of the model on literals, not proofs of properties.
-/
set_option maxRecDepth 100000
namespace Ripcalc.Conformance
open Ripcalc

-- lines 95-97
example : rangeToSubnets .checked (ip4 (chars! "192.0.2.0")) (ip4 (chars! "192.0.2.255")) = .ok
    [(net4 (chars! "192.0.2.0") 24)] :=
  (rangeToSubnetsE_approx 1000 _ _ _).eq (by decide +kernel) (by intro h; cases h)

-- lines 101-103
example : rangeToSubnets .checked (ip6 (chars! "2001:db8::")) (ip6 (chars! "2001:db8::ffff:ffff:ffff:ffff")) = .ok
    [(net6 (chars! "2001:db8::") 64)] :=
  evalV6 (fun i => @rangeToSubnets V6 i .checked _ _ = .ok _) ((@rangeToSubnetsE_approx V6 v6E 1000 _ _ _).eq (by decide +kernel) (by intro h; cases h))

-- lines 110-125
example : rangeToSubnets .checked (ip4 (chars! "192.0.2.1")) (ip4 (chars! "192.0.2.254")) = .ok
    [(net4 (chars! "192.0.2.1") 32),
      (net4 (chars! "192.0.2.2") 31),
      (net4 (chars! "192.0.2.4") 30),
      (net4 (chars! "192.0.2.8") 29),
      (net4 (chars! "192.0.2.16") 28),
      (net4 (chars! "192.0.2.32") 27),
      (net4 (chars! "192.0.2.64") 26),
      (net4 (chars! "192.0.2.128") 26),
      (net4 (chars! "192.0.2.192") 27),
      (net4 (chars! "192.0.2.224") 28),
      (net4 (chars! "192.0.2.240") 29),
      (net4 (chars! "192.0.2.248") 30),
      (net4 (chars! "192.0.2.252") 31),
      (net4 (chars! "192.0.2.254") 32)] :=
  (rangeToSubnetsE_approx 1000 _ _ _).eq (by decide +kernel) (by intro h; cases h)

-- lines 129-160
example : rangeToSubnets .checked (ip6 (chars! "2001:db8::1")) (ip6 (chars! "2001:db8::fffe")) = .ok
    [(net6 (chars! "2001:db8::1") 128),
      (net6 (chars! "2001:db8::2") 127),
      (net6 (chars! "2001:db8::4") 126),
      (net6 (chars! "2001:db8::8") 125),
      (net6 (chars! "2001:db8::10") 124),
      (net6 (chars! "2001:db8::20") 123),
      (net6 (chars! "2001:db8::40") 122),
      (net6 (chars! "2001:db8::80") 121),
      (net6 (chars! "2001:db8::100") 120),
      (net6 (chars! "2001:db8::200") 119),
      (net6 (chars! "2001:db8::400") 118),
      (net6 (chars! "2001:db8::800") 117),
      (net6 (chars! "2001:db8::1000") 116),
      (net6 (chars! "2001:db8::2000") 115),
      (net6 (chars! "2001:db8::4000") 114),
      (net6 (chars! "2001:db8::8000") 114),
      (net6 (chars! "2001:db8::c000") 115),
      (net6 (chars! "2001:db8::e000") 116),
      (net6 (chars! "2001:db8::f000") 117),
      (net6 (chars! "2001:db8::f800") 118),
      (net6 (chars! "2001:db8::fc00") 119),
      (net6 (chars! "2001:db8::fe00") 120),
      (net6 (chars! "2001:db8::ff00") 121),
      (net6 (chars! "2001:db8::ff80") 122),
      (net6 (chars! "2001:db8::ffc0") 123),
      (net6 (chars! "2001:db8::ffe0") 124),
      (net6 (chars! "2001:db8::fff0") 125),
      (net6 (chars! "2001:db8::fff8") 126),
      (net6 (chars! "2001:db8::fffc") 127),
      (net6 (chars! "2001:db8::fffe") 128)] :=
  evalV6 (fun i => @rangeToSubnets V6 i .checked _ _ = .ok _) ((@rangeToSubnetsE_approx V6 v6E 1000 _ _ _).eq (by decide +kernel) (by intro h; cases h))

end Ripcalc.Conformance
