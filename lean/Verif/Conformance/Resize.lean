import Verif.Conformance.Basic
/-!
# The unit tests of `/repo/src/cmds/resize.rs`, run on the model

Written by `tools/gen_conformance.py`.  These are tests of the model on literals, not proofs of properties.
-/
set_option maxRecDepth 100000
namespace Ripcalc.Conformance
open Ripcalc

-- lines 168-174
example : resizeNetwork .checked (net4 (chars! "192.0.2.0") 24) (ip4 (chars! "255.255.255.0")) = .ok
    ([(net4 (chars! "192.0.2.0") 24)], .eq) :=
  (resizeNetworkE_approx 100 _ _ _).eq (by decide +kernel) (by intro h; cases h)

-- lines 177-183
example : resizeNetwork .checked (net4 (chars! "192.0.2.0") 24) (ip4 (chars! "255.0.255.255")) = .ok
    ([(netm4 (chars! "192.0.0.2") (chars! "255.0.255.255"))], .eq) :=
  (resizeNetworkE_approx 100 _ _ _).eq (by decide +kernel) (by intro h; cases h)

-- lines 186-195
example : resizeNetwork .checked (net4 (chars! "192.0.2.0") 24) (ip4 (chars! "255.255.255.192")) = .ok
    ([(net4 (chars! "192.0.2.0") 26),
      (net4 (chars! "192.0.2.64") 26),
      (net4 (chars! "192.0.2.128") 26),
      (net4 (chars! "192.0.2.192") 26)], .gt) :=
  (resizeNetworkE_approx 100 _ _ _).eq (by decide +kernel) (by intro h; cases h)

-- lines 198-207
example : resizeNetwork .checked (net4 (chars! "192.0.2.0") 24) (ip4 (chars! "255.255.192.255")) = .ok
    ([(netm4 (chars! "192.0.0.8") (chars! "255.255.192.255")),
      (netm4 (chars! "192.0.0.9") (chars! "255.255.192.255")),
      (netm4 (chars! "192.0.0.10") (chars! "255.255.192.255")),
      (netm4 (chars! "192.0.0.11") (chars! "255.255.192.255"))], .gt) :=
  (resizeNetworkE_approx 100 _ _ _).eq (by decide +kernel) (by intro h; cases h)

-- lines 210-216
example : resizeNetwork .checked (net4 (chars! "192.0.2.0") 24) (ip4 (chars! "255.255.0.0")) = .ok
    ([(net4 (chars! "192.0.0.0") 16)], .lt) :=
  (resizeNetworkE_approx 100 _ _ _).eq (by decide +kernel) (by intro h; cases h)

-- lines 219-225
example : resizeNetwork .checked (net4 (chars! "192.0.2.0") 24) (ip4 (chars! "255.0.255.0")) = .ok
    ([(netm4 (chars! "192.0.0.0") (chars! "255.0.255.0"))], .lt) :=
  (resizeNetworkE_approx 100 _ _ _).eq (by decide +kernel) (by intro h; cases h)

-- lines 231-237
example : resizeNetwork .checked (net6 (chars! "2001:db8::") 64) (ip6 (chars! "ffff:ffff:ffff:ffff::")) = .ok
    ([(net6 (chars! "2001:db8::") 64)], .eq) :=
  evalV6 (fun i => @resizeNetwork V6 i .checked _ _ = .ok _) ((@resizeNetworkE_approx V6 v6E 100 _ _ _).eq (by decide +kernel) (by intro h; cases h))

-- lines 240-246
example : resizeNetwork .checked (net6 (chars! "2001:db8::") 64) (ip6 (chars! "ffff:0:ffff:ffff:ffff::")) = .ok
    ([(netm6 (chars! "2001:0:db8::") (chars! "ffff:0:ffff:ffff:ffff::"))], .eq) :=
  evalV6 (fun i => @resizeNetwork V6 i .checked _ _ = .ok _) ((@resizeNetworkE_approx V6 v6E 100 _ _ _).eq (by decide +kernel) (by intro h; cases h))

-- lines 249-258
example : resizeNetwork .checked (net6 (chars! "2001:db8::") 64) (ip6 (chars! "ffff:ffff:ffff:ffff:c000::")) = .ok
    ([(net6 (chars! "2001:db8::") 66),
      (net6 (chars! "2001:db8:0:0:4000::") 66),
      (net6 (chars! "2001:db8:0:0:8000::") 66),
      (net6 (chars! "2001:db8:0:0:c000::") 66)], .gt) :=
  evalV6 (fun i => @resizeNetwork V6 i .checked _ _ = .ok _) ((@resizeNetworkE_approx V6 v6E 100 _ _ _).eq (by decide +kernel) (by intro h; cases h))

-- lines 261-270
example : resizeNetwork .checked (net6 (chars! "2001:db8::") 64) (ip6 (chars! "ffff:ffff:ffff:ffff:0:c000::")) = .ok
    ([(netm6 (chars! "2001:db8::") (chars! "ffff:ffff:ffff:ffff:0:c000::")),
      (netm6 (chars! "2001:db8:0:0:0:4000::") (chars! "ffff:ffff:ffff:ffff:0:c000::")),
      (netm6 (chars! "2001:db8:0:0:0:8000::") (chars! "ffff:ffff:ffff:ffff:0:c000::")),
      (netm6 (chars! "2001:db8:0:0:0:c000::") (chars! "ffff:ffff:ffff:ffff:0:c000::"))], .gt) :=
  evalV6 (fun i => @resizeNetwork V6 i .checked _ _ = .ok _) ((@resizeNetworkE_approx V6 v6E 100 _ _ _).eq (by decide +kernel) (by intro h; cases h))

-- lines 273-279
example : resizeNetwork .checked (net6 (chars! "2001:db8:1234:1234::") 64) (ip6 (chars! "ffff:ffff:ffff::")) = .ok
    ([(net6 (chars! "2001:db8:1234::") 48)], .lt) :=
  evalV6 (fun i => @resizeNetwork V6 i .checked _ _ = .ok _) ((@resizeNetworkE_approx V6 v6E 100 _ _ _).eq (by decide +kernel) (by intro h; cases h))

-- lines 282-288
example : resizeNetwork .checked (net6 (chars! "2001:db8:1234:1234::") 64) (ip6 (chars! "ffff:ffff:0:ffff::")) = .ok
    ([(netm6 (chars! "2001:db8:0:1234::") (chars! "ffff:ffff:0:ffff::"))], .lt) :=
  evalV6 (fun i => @resizeNetwork V6 i .checked _ _ = .ok _) ((@resizeNetworkE_approx V6 v6E 100 _ _ _).eq (by decide +kernel) (by intro h; cases h))

end Ripcalc.Conformance
