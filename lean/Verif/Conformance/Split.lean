import Verif.Conformance.Basic
/-!
# The unit tests of `/repo/src/cmds/split.rs`, run on the model

Written by `tools/gen_conformance.py`.  These are tests of the model on literals, not proofs of properties.
-/
set_option maxRecDepth 100000
namespace Ripcalc.Conformance
open Ripcalc

-- lines 148-154
example : splitSubnet (evalRuntime .checked true) (net4 (chars! "192.0.2.0") 24) [10] = .ok
    (some [(net4 (chars! "192.0.2.0") 28)]) :=
  (splitSubnetE_approx 200 _ _ _).eq (by decide +kernel) (by intro h; cases h)

-- lines 157-166
example : splitSubnet (evalRuntime .checked true) (net4 (chars! "192.0.2.0") 24) [60, 60, 60, 60] = .ok
    (some [(net4 (chars! "192.0.2.0") 26),
      (net4 (chars! "192.0.2.64") 26),
      (net4 (chars! "192.0.2.128") 26),
      (net4 (chars! "192.0.2.192") 26)]) :=
  (splitSubnetE_approx 200 _ _ _).eq (by decide +kernel) (by intro h; cases h)

-- lines 169-179
example : splitSubnet (evalRuntime .checked true) (net4 (chars! "192.0.2.0") 24) [60, 60, 60, 60, 60] = .ok
    (some [(net4 (chars! "192.0.2.0") 26),
      (net4 (chars! "192.0.2.64") 26),
      (net4 (chars! "192.0.2.128") 26),
      (net4 (chars! "192.0.2.192") 26),
      (net4 (chars! "192.0.3.0") 26)]) :=
  (splitSubnetE_approx 200 _ _ _).eq (by decide +kernel) (by intro h; cases h)

-- lines 182-190
example : splitSubnet (evalRuntime .checked true) (net4 (chars! "192.0.2.0") 24) [60, 100, 60] = .ok
    (some [(net4 (chars! "192.0.2.128") 26),
      (net4 (chars! "192.0.2.0") 25),
      (net4 (chars! "192.0.2.192") 26)]) :=
  (splitSubnetE_approx 200 _ _ _).eq (by decide +kernel) (by intro h; cases h)

-- lines 193-201
example : splitSubnet (evalRuntime .checked true) (net4 (chars! "192.0.2.0") 24) [60, 100, 60] = .ok
    (some [(net4 (chars! "192.0.2.128") 26),
      (net4 (chars! "192.0.2.0") 25),
      (net4 (chars! "192.0.2.192") 26)]) :=
  (splitSubnetE_approx 200 _ _ _).eq (by decide +kernel) (by intro h; cases h)

-- lines 204-208
example : splitSubnet (evalRuntime .checked true) (net4 (chars! "192.0.2.0") 24) [8589934592] = .ok
    none :=
  (splitSubnetE_approx 200 _ _ _).eq (by decide +kernel) (by intro h; cases h)

-- lines 214-220
example : splitSubnet (evalRuntime .checked true) (net6 (chars! "2001:db8::") 64) [10] = .ok
    (some [(net6 (chars! "2001:db8::") 124)]) :=
  evalV6 (fun i => @splitSubnet V6 i _ _ _ = .ok _) ((@splitSubnetE_approx V6 v6E 200 _ _ _).eq (by decide +kernel) (by intro h; cases h))

-- lines 223-232
example : splitSubnet (evalRuntime .checked true) (net6 (chars! "2001:db8::") 64) [60, 60, 60, 60] = .ok
    (some [(net6 (chars! "2001:db8::") 122),
      (net6 (chars! "2001:db8::40") 122),
      (net6 (chars! "2001:db8::80") 122),
      (net6 (chars! "2001:db8::c0") 122)]) :=
  evalV6 (fun i => @splitSubnet V6 i _ _ _ = .ok _) ((@splitSubnetE_approx V6 v6E 200 _ _ _).eq (by decide +kernel) (by intro h; cases h))

-- lines 235-245
example : splitSubnet (evalRuntime .checked true) (net6 (chars! "2001:db8::") 121) [60, 60, 60, 60, 60] = .ok
    (some [(net6 (chars! "2001:db8::") 122),
      (net6 (chars! "2001:db8::40") 122),
      (net6 (chars! "2001:db8::80") 122),
      (net6 (chars! "2001:db8::c0") 122),
      (net6 (chars! "2001:db8::100") 122)]) :=
  evalV6 (fun i => @splitSubnet V6 i _ _ _ = .ok _) ((@splitSubnetE_approx V6 v6E 200 _ _ _).eq (by decide +kernel) (by intro h; cases h))

-- lines 248-256
example : splitSubnet (evalRuntime .checked true) (net6 (chars! "2001:db8::") 64) [60, 100, 60] = .ok
    (some [(net6 (chars! "2001:db8::80") 122),
      (net6 (chars! "2001:db8::") 121),
      (net6 (chars! "2001:db8::c0") 122)]) :=
  evalV6 (fun i => @splitSubnet V6 i _ _ _ = .ok _) ((@splitSubnetE_approx V6 v6E 200 _ _ _).eq (by decide +kernel) (by intro h; cases h))

-- lines 259-267
example : splitSubnet (evalRuntime .checked true) (net6 (chars! "2001:db8::") 121) [60, 100, 60] = .ok
    (some [(net6 (chars! "2001:db8::80") 122),
      (net6 (chars! "2001:db8::") 121),
      (net6 (chars! "2001:db8::c0") 122)]) :=
  evalV6 (fun i => @splitSubnet V6 i _ _ _ = .ok _) ((@splitSubnetE_approx V6 v6E 200 _ _ _).eq (by decide +kernel) (by intro h; cases h))

-- lines 270-274
example : splitSubnet (evalRuntime .checked true) (net6 (chars! "2001:db8::") 64) [680564733841876926926749214863536422912] = .ok
    none :=
  evalV6 (fun i => @splitSubnet V6 i _ _ _ = .ok _) ((@splitSubnetE_approx V6 v6E 200 _ _ _).eq (by decide +kernel) (by intro h; cases h))

end Ripcalc.Conformance
