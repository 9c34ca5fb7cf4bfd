import Verif.Conformance.Basic
/-!
# The unit tests of `/repo/src/cmds/minimize.rs`, run on the model

Written by `tools/gen_conformance.py`.  These are tests of the model on literals, not proofs of properties.
-/
set_option maxRecDepth 100000
namespace Ripcalc.Conformance
open Ripcalc

-- lines 157-164
example : minimizeSubnets (evalRuntime .checked true)
    [(net4 (chars! "128.132.0.0") 16),
      (net4 (chars! "128.133.0.0") 16),
      (net4 (chars! "128.130.0.0") 16),
      (net4 (chars! "128.131.0.0") 16),
      (net4 (chars! "192.35.240.0") 22),
      (net4 (chars! "192.35.244.0") 24),
      (net4 (chars! "193.170.72.0") 21),
      (net4 (chars! "193.170.72.0") 22),
      (net4 (chars! "193.170.76.0") 23),
      (net4 (chars! "193.170.78.0") 24)] = .ok
    [(net4 (chars! "128.130.0.0") 15),
      (net4 (chars! "128.132.0.0") 15),
      (net4 (chars! "192.35.240.0") 22),
      (net4 (chars! "192.35.244.0") 24),
      (net4 (chars! "193.170.72.0") 21)] :=
  (minimizeSubnetsE_approx 100 _ _).eq (by decide +kernel) (by intro h; cases h)

-- lines 172-176
example : minimizeSubnets (evalRuntime .checked true)
    [(net6 (chars! "2001:db8:1::") 48),
      (net6 (chars! "2001:db8:3::") 48),
      (net6 (chars! "2001:db8:2::") 48),
      (net6 (chars! "2001:db8:4::") 48)] = .ok
    [(net6 (chars! "2001:db8:1::") 48),
      (net6 (chars! "2001:db8:2::") 47),
      (net6 (chars! "2001:db8:4::") 48)] :=
  evalV6 (fun i => @minimizeSubnets V6 i _ _ = .ok _) ((@minimizeSubnetsE_approx V6 v6E 100 _ _).eq (by decide +kernel) (by intro h; cases h))

-- lines 187-190
example : minimizeSubnets (evalRuntime .checked true)
    [(netm4 (chars! "128.0.0.130") (chars! "255.0.0.255")),
      (netm4 (chars! "128.0.0.132") (chars! "255.0.0.255")),
      (netm4 (chars! "128.0.0.131") (chars! "255.0.0.255")),
      (netm4 (chars! "128.0.0.133") (chars! "255.0.0.255"))] = .ok
    [(netm4 (chars! "128.0.0.130") (chars! "255.0.0.254")),
      (netm4 (chars! "128.0.0.132") (chars! "255.0.0.254"))] :=
  (minimizeSubnetsE_approx 100 _ _).eq (by decide +kernel) (by intro h; cases h)

-- lines 198-202
example : minimizeSubnets (evalRuntime .checked true)
    [(netm6 (chars! "2001:db8::1") (chars! "ffff:ffff::ffff")),
      (netm6 (chars! "2001:db8::3") (chars! "ffff:ffff::ffff")),
      (netm6 (chars! "2001:db8::2") (chars! "ffff:ffff::ffff")),
      (netm6 (chars! "2001:db8::4") (chars! "ffff:ffff::ffff"))] = .ok
    [(netm6 (chars! "2001:db8::1") (chars! "ffff:ffff::ffff")),
      (netm6 (chars! "2001:db8::2") (chars! "ffff:ffff::fffe")),
      (netm6 (chars! "2001:db8::4") (chars! "ffff:ffff::ffff"))] :=
  evalV6 (fun i => @minimizeSubnets V6 i _ _ = .ok _) ((@minimizeSubnetsE_approx V6 v6E 100 _ _).eq (by decide +kernel) (by intro h; cases h))

end Ripcalc.Conformance
