import Verif.Conformance.Basic
/-!
# The unit tests of `/repo/src/net.rs`, run on the model

Written by `tools/gen_conformance.py`.  These are tests of the model on literals, not proofs of properties.
-/
set_option maxRecDepth 100000
namespace Ripcalc.Conformance
open Ripcalc

-- lines 294-314
example : ∃ net : Net V4, Exec.ok (Net.newWithMask (ip4 (chars! "127.0.0.1")) (ip4 (chars! "255.0.0.0"))) = .ok net ∧
    (.ok net.baseAddr) = Exec.ok (ip4 (chars! "127.0.0.0")) ∧
    (.ok net.subnetMask) = Exec.ok (ip4 (chars! "255.0.0.0")) ∧
    (.ok net.cidrPrefix) = Exec.ok (some 8) ∧
    (.ok net.ciscoWildcard) = Exec.ok (ip4 (chars! "0.255.255.255")) ∧
    (net.firstHostAddr .checked) = Exec.ok (some (ip4 (chars! "127.0.0.1"))) ∧
    net.broadcastAddr = Exec.ok (some (ip4 (chars! "127.255.255.255"))) ∧
    (net.lastHostAddr .checked) = Exec.ok (some (ip4 (chars! "127.255.255.254"))) ∧
    (net.nextSubnetBaseAddr .checked) = Exec.ok (some (ip4 (chars! "128.0.0.0"))) ∧
    net.contains net.baseAddr = true ∧
    containsE net (net.firstHostAddr .checked) = .ok true ∧
    net.contains (ip4 (chars! "127.31.41.59")) = true ∧
    containsE net (net.lastHostAddr .checked) = .ok true ∧
    containsE net net.broadcastAddr = .ok true ∧
    containsE net (net.nextSubnetBaseAddr .checked) = .ok false ∧
    (.ok net.addressCount) = Exec.ok (16777216) ∧
    (.ok net.hostCount) = Exec.ok (16777214) :=
  holdsOf (by decide +kernel)

-- lines 318-338
example : ∃ net : Net V4, Exec.ok (Net.newWithMask (ip4 (chars! "127.0.0.1")) (ip4 (chars! "255.0.255.0"))) = .ok net ∧
    (.ok net.baseAddr) = Exec.ok (ip4 (chars! "127.0.0.0")) ∧
    (.ok net.subnetMask) = Exec.ok (ip4 (chars! "255.0.255.0")) ∧
    (.ok net.cidrPrefix) = Exec.ok none ∧
    (.ok net.ciscoWildcard) = Exec.ok (ip4 (chars! "0.255.0.255")) ∧
    (net.firstHostAddr .checked) = Exec.ok (some (ip4 (chars! "127.0.0.1"))) ∧
    net.broadcastAddr = Exec.ok (some (ip4 (chars! "127.255.0.255"))) ∧
    (net.lastHostAddr .checked) = Exec.ok (some (ip4 (chars! "127.255.0.254"))) ∧
    (net.nextSubnetBaseAddr .checked) = Exec.ok (some (ip4 (chars! "127.0.1.0"))) ∧
    net.contains net.baseAddr = true ∧
    containsE net (net.firstHostAddr .checked) = .ok true ∧
    net.contains (ip4 (chars! "127.31.0.59")) = true ∧
    containsE net (net.lastHostAddr .checked) = .ok true ∧
    containsE net net.broadcastAddr = .ok true ∧
    containsE net (net.nextSubnetBaseAddr .checked) = .ok false ∧
    (.ok net.addressCount) = Exec.ok (65536) ∧
    (.ok net.hostCount) = Exec.ok (65534) :=
  holdsOf (by decide +kernel)

-- lines 342-360
example : ∃ net : Net V4, Exec.ok (Net.newWithMask (ip4 (chars! "127.0.0.1")) (ip4 (chars! "255.255.255.255"))) = .ok net ∧
    (.ok net.baseAddr) = Exec.ok (ip4 (chars! "127.0.0.1")) ∧
    (.ok net.subnetMask) = Exec.ok (ip4 (chars! "255.255.255.255")) ∧
    (.ok net.cidrPrefix) = Exec.ok (some 32) ∧
    (.ok net.ciscoWildcard) = Exec.ok (ip4 (chars! "0.0.0.0")) ∧
    (net.firstHostAddr .checked) = Exec.ok none ∧
    net.broadcastAddr = Exec.ok none ∧
    (net.lastHostAddr .checked) = Exec.ok none ∧
    (net.nextSubnetBaseAddr .checked) = Exec.ok (some (ip4 (chars! "127.0.0.2"))) ∧
    net.contains net.baseAddr = true ∧
    net.contains (ip4 (chars! "127.0.0.0")) = false ∧
    net.contains (ip4 (chars! "127.0.0.2")) = false ∧
    containsE net (net.nextSubnetBaseAddr .checked) = .ok false ∧
    (.ok net.addressCount) = Exec.ok (1) ∧
    (.ok net.hostCount) = Exec.ok (-1) :=
  holdsOf (by decide +kernel)

-- lines 364-381
example : ∃ net : Net V4, Exec.ok (Net.newWithMask (ip4 (chars! "127.0.0.1")) (ip4 (chars! "255.255.255.254"))) = .ok net ∧
    (.ok net.baseAddr) = Exec.ok (ip4 (chars! "127.0.0.0")) ∧
    (.ok net.subnetMask) = Exec.ok (ip4 (chars! "255.255.255.254")) ∧
    (.ok net.cidrPrefix) = Exec.ok (some 31) ∧
    (.ok net.ciscoWildcard) = Exec.ok (ip4 (chars! "0.0.0.1")) ∧
    (net.firstHostAddr .checked) = Exec.ok none ∧
    net.broadcastAddr = Exec.ok (some (ip4 (chars! "127.0.0.1"))) ∧
    (net.lastHostAddr .checked) = Exec.ok none ∧
    (net.nextSubnetBaseAddr .checked) = Exec.ok (some (ip4 (chars! "127.0.0.2"))) ∧
    net.contains net.baseAddr = true ∧
    containsE net net.broadcastAddr = .ok true ∧
    containsE net (net.nextSubnetBaseAddr .checked) = .ok false ∧
    (.ok net.addressCount) = Exec.ok (2) ∧
    (.ok net.hostCount) = Exec.ok (0) :=
  holdsOf (by decide +kernel)

-- lines 385-404
example : ∃ net : Net V4, Exec.ok (Net.newWithMask (ip4 (chars! "0.0.0.0")) (ip4 (chars! "0.0.0.0"))) = .ok net ∧
    (.ok net.baseAddr) = Exec.ok (ip4 (chars! "0.0.0.0")) ∧
    (.ok net.subnetMask) = Exec.ok (ip4 (chars! "0.0.0.0")) ∧
    (.ok net.cidrPrefix) = Exec.ok (some 0) ∧
    (.ok net.ciscoWildcard) = Exec.ok (ip4 (chars! "255.255.255.255")) ∧
    (net.firstHostAddr .checked) = Exec.ok (some (ip4 (chars! "0.0.0.1"))) ∧
    net.broadcastAddr = Exec.ok (some (ip4 (chars! "255.255.255.255"))) ∧
    (net.lastHostAddr .checked) = Exec.ok (some (ip4 (chars! "255.255.255.254"))) ∧
    (net.nextSubnetBaseAddr .checked) = Exec.ok none ∧
    net.contains net.baseAddr = true ∧
    containsE net (net.firstHostAddr .checked) = .ok true ∧
    net.contains (ip4 (chars! "31.41.59.26")) = true ∧
    containsE net (net.lastHostAddr .checked) = .ok true ∧
    containsE net net.broadcastAddr = .ok true ∧
    (.ok net.addressCount) = Exec.ok (4294967296) ∧
    (.ok net.hostCount) = Exec.ok (4294967294) :=
  holdsOf (by decide +kernel)

-- lines 411-431
example : ∃ net : Net V6, Exec.ok (Net.newWithMask (ip6 (chars! "fe80::1")) (ip6 (chars! "ffc0::"))) = .ok net ∧
    (.ok net.baseAddr) = Exec.ok (ip6 (chars! "fe80::")) ∧
    (.ok net.subnetMask) = Exec.ok (ip6 (chars! "ffc0::")) ∧
    (.ok net.cidrPrefix) = Exec.ok (some 10) ∧
    (.ok net.ciscoWildcard) = Exec.ok (ip6 (chars! "3f:ffff:ffff:ffff:ffff:ffff:ffff:ffff")) ∧
    (net.firstHostAddr .checked) = Exec.ok (some (ip6 (chars! "fe80::1"))) ∧
    net.broadcastAddr = Exec.ok (some (ip6 (chars! "febf:ffff:ffff:ffff:ffff:ffff:ffff:ffff"))) ∧
    (net.lastHostAddr .checked) = Exec.ok (some (ip6 (chars! "febf:ffff:ffff:ffff:ffff:ffff:ffff:fffe"))) ∧
    (net.nextSubnetBaseAddr .checked) = Exec.ok (some (ip6 (chars! "fec0::"))) ∧
    net.contains net.baseAddr = true ∧
    containsE net (net.firstHostAddr .checked) = .ok true ∧
    net.contains (ip6 (chars! "feab:1234:5678:1234:5678:1234:5678:1234")) = true ∧
    containsE net (net.lastHostAddr .checked) = .ok true ∧
    containsE net net.broadcastAddr = .ok true ∧
    containsE net (net.nextSubnetBaseAddr .checked) = .ok false ∧
    (.ok net.addressCount) = Exec.ok 332306998946228968225951765070086144 ∧
    (.ok net.hostCount) = Exec.ok 332306998946228968225951765070086142 :=
  evalV6 (fun _i : IpAddr V6 => ∃ net : Net V6, Exec.ok (Net.newWithMask (ip6 (chars! "fe80::1")) (ip6 (chars! "ffc0::"))) = .ok net ∧
    (.ok net.baseAddr) = Exec.ok (ip6 (chars! "fe80::")) ∧
    (.ok net.subnetMask) = Exec.ok (ip6 (chars! "ffc0::")) ∧
    (.ok net.cidrPrefix) = Exec.ok (some 10) ∧
    (.ok net.ciscoWildcard) = Exec.ok (ip6 (chars! "3f:ffff:ffff:ffff:ffff:ffff:ffff:ffff")) ∧
    (net.firstHostAddr .checked) = Exec.ok (some (ip6 (chars! "fe80::1"))) ∧
    net.broadcastAddr = Exec.ok (some (ip6 (chars! "febf:ffff:ffff:ffff:ffff:ffff:ffff:ffff"))) ∧
    (net.lastHostAddr .checked) = Exec.ok (some (ip6 (chars! "febf:ffff:ffff:ffff:ffff:ffff:ffff:fffe"))) ∧
    (net.nextSubnetBaseAddr .checked) = Exec.ok (some (ip6 (chars! "fec0::"))) ∧
    net.contains net.baseAddr = true ∧
    containsE net (net.firstHostAddr .checked) = .ok true ∧
    net.contains (ip6 (chars! "feab:1234:5678:1234:5678:1234:5678:1234")) = true ∧
    containsE net (net.lastHostAddr .checked) = .ok true ∧
    containsE net net.broadcastAddr = .ok true ∧
    containsE net (net.nextSubnetBaseAddr .checked) = .ok false ∧
    (.ok net.addressCount) = Exec.ok 332306998946228968225951765070086144 ∧
    (.ok net.hostCount) = Exec.ok 332306998946228968225951765070086142) (holdsOf (by decide +kernel))

-- lines 435-455
example : ∃ net : Net V6, Exec.ok (Net.newWithMask (ip6 (chars! "1234:1234:1234:1234:1234:1234:1234:1234")) (ip6 (chars! "ffff:0000:ffff:0000:0000:ffff:0000:ffff"))) = .ok net ∧
    (.ok net.baseAddr) = Exec.ok (ip6 (chars! "1234:0000:1234:0000:0000:1234:0000:1234")) ∧
    (.ok net.subnetMask) = Exec.ok (ip6 (chars! "ffff:0000:ffff:0000:0000:ffff:0000:ffff")) ∧
    (.ok net.cidrPrefix) = Exec.ok none ∧
    (.ok net.ciscoWildcard) = Exec.ok (ip6 (chars! "0000:ffff:0000:ffff:ffff:0000:ffff:0000")) ∧
    (net.firstHostAddr .checked) = Exec.ok (some (ip6 (chars! "1234:0000:1234:0000:0000:1234:0001:1234"))) ∧
    net.broadcastAddr = Exec.ok (some (ip6 (chars! "1234:ffff:1234:ffff:ffff:1234:ffff:1234"))) ∧
    (net.lastHostAddr .checked) = Exec.ok (some (ip6 (chars! "1234:ffff:1234:ffff:ffff:1234:fffe:1234"))) ∧
    (net.nextSubnetBaseAddr .checked) = Exec.ok (some (ip6 (chars! "1234:0000:1234:0000:0000:1234:0000:1235"))) ∧
    net.contains net.baseAddr = true ∧
    containsE net (net.firstHostAddr .checked) = .ok true ∧
    net.contains (ip6 (chars! "1234:3141:1234:5926:5358:1234:9793:1234")) = true ∧
    containsE net (net.lastHostAddr .checked) = .ok true ∧
    containsE net net.broadcastAddr = .ok true ∧
    containsE net (net.nextSubnetBaseAddr .checked) = .ok false ∧
    (.ok net.addressCount) = Exec.ok 18446744073709551616 ∧
    (.ok net.hostCount) = Exec.ok 18446744073709551614 :=
  evalV6 (fun _i : IpAddr V6 => ∃ net : Net V6, Exec.ok (Net.newWithMask (ip6 (chars! "1234:1234:1234:1234:1234:1234:1234:1234")) (ip6 (chars! "ffff:0000:ffff:0000:0000:ffff:0000:ffff"))) = .ok net ∧
    (.ok net.baseAddr) = Exec.ok (ip6 (chars! "1234:0000:1234:0000:0000:1234:0000:1234")) ∧
    (.ok net.subnetMask) = Exec.ok (ip6 (chars! "ffff:0000:ffff:0000:0000:ffff:0000:ffff")) ∧
    (.ok net.cidrPrefix) = Exec.ok none ∧
    (.ok net.ciscoWildcard) = Exec.ok (ip6 (chars! "0000:ffff:0000:ffff:ffff:0000:ffff:0000")) ∧
    (net.firstHostAddr .checked) = Exec.ok (some (ip6 (chars! "1234:0000:1234:0000:0000:1234:0001:1234"))) ∧
    net.broadcastAddr = Exec.ok (some (ip6 (chars! "1234:ffff:1234:ffff:ffff:1234:ffff:1234"))) ∧
    (net.lastHostAddr .checked) = Exec.ok (some (ip6 (chars! "1234:ffff:1234:ffff:ffff:1234:fffe:1234"))) ∧
    (net.nextSubnetBaseAddr .checked) = Exec.ok (some (ip6 (chars! "1234:0000:1234:0000:0000:1234:0000:1235"))) ∧
    net.contains net.baseAddr = true ∧
    containsE net (net.firstHostAddr .checked) = .ok true ∧
    net.contains (ip6 (chars! "1234:3141:1234:5926:5358:1234:9793:1234")) = true ∧
    containsE net (net.lastHostAddr .checked) = .ok true ∧
    containsE net net.broadcastAddr = .ok true ∧
    containsE net (net.nextSubnetBaseAddr .checked) = .ok false ∧
    (.ok net.addressCount) = Exec.ok 18446744073709551616 ∧
    (.ok net.hostCount) = Exec.ok 18446744073709551614) (holdsOf (by decide +kernel))

-- lines 459-475
example : ∃ net : Net V6, Exec.ok (Net.newWithMask (ip6 (chars! "::1")) (ip6 (chars! "ffff:ffff:ffff:ffff:ffff:ffff:ffff:ffff"))) = .ok net ∧
    (.ok net.baseAddr) = Exec.ok (ip6 (chars! "::1")) ∧
    (.ok net.subnetMask) = Exec.ok (ip6 (chars! "ffff:ffff:ffff:ffff:ffff:ffff:ffff:ffff")) ∧
    (.ok net.cidrPrefix) = Exec.ok (some 128) ∧
    (.ok net.ciscoWildcard) = Exec.ok (ip6 (chars! "::")) ∧
    (net.firstHostAddr .checked) = Exec.ok none ∧
    net.broadcastAddr = Exec.ok none ∧
    (net.lastHostAddr .checked) = Exec.ok none ∧
    (net.nextSubnetBaseAddr .checked) = Exec.ok (some (ip6 (chars! "::2"))) ∧
    net.contains net.baseAddr = true ∧
    containsE net (net.nextSubnetBaseAddr .checked) = .ok false ∧
    (.ok net.addressCount) = Exec.ok (1) ∧
    (.ok net.hostCount) = Exec.ok (-1) :=
  evalV6 (fun _i : IpAddr V6 => ∃ net : Net V6, Exec.ok (Net.newWithMask (ip6 (chars! "::1")) (ip6 (chars! "ffff:ffff:ffff:ffff:ffff:ffff:ffff:ffff"))) = .ok net ∧
    (.ok net.baseAddr) = Exec.ok (ip6 (chars! "::1")) ∧
    (.ok net.subnetMask) = Exec.ok (ip6 (chars! "ffff:ffff:ffff:ffff:ffff:ffff:ffff:ffff")) ∧
    (.ok net.cidrPrefix) = Exec.ok (some 128) ∧
    (.ok net.ciscoWildcard) = Exec.ok (ip6 (chars! "::")) ∧
    (net.firstHostAddr .checked) = Exec.ok none ∧
    net.broadcastAddr = Exec.ok none ∧
    (net.lastHostAddr .checked) = Exec.ok none ∧
    (net.nextSubnetBaseAddr .checked) = Exec.ok (some (ip6 (chars! "::2"))) ∧
    net.contains net.baseAddr = true ∧
    containsE net (net.nextSubnetBaseAddr .checked) = .ok false ∧
    (.ok net.addressCount) = Exec.ok (1) ∧
    (.ok net.hostCount) = Exec.ok (-1)) (holdsOf (by decide +kernel))

-- lines 479-496
example : ∃ net : Net V6, Exec.ok (Net.newWithMask (ip6 (chars! "fe80::3")) (ip6 (chars! "ffff:ffff:ffff:ffff:ffff:ffff:ffff:fffe"))) = .ok net ∧
    (.ok net.baseAddr) = Exec.ok (ip6 (chars! "fe80::2")) ∧
    (.ok net.subnetMask) = Exec.ok (ip6 (chars! "ffff:ffff:ffff:ffff:ffff:ffff:ffff:fffe")) ∧
    (.ok net.cidrPrefix) = Exec.ok (some 127) ∧
    (.ok net.ciscoWildcard) = Exec.ok (ip6 (chars! "::1")) ∧
    (net.firstHostAddr .checked) = Exec.ok none ∧
    net.broadcastAddr = Exec.ok (some (ip6 (chars! "fe80::3"))) ∧
    (net.lastHostAddr .checked) = Exec.ok none ∧
    (net.nextSubnetBaseAddr .checked) = Exec.ok (some (ip6 (chars! "fe80::4"))) ∧
    net.contains net.baseAddr = true ∧
    containsE net net.broadcastAddr = .ok true ∧
    containsE net (net.nextSubnetBaseAddr .checked) = .ok false ∧
    (.ok net.addressCount) = Exec.ok (2) ∧
    (.ok net.hostCount) = Exec.ok (0) :=
  evalV6 (fun _i : IpAddr V6 => ∃ net : Net V6, Exec.ok (Net.newWithMask (ip6 (chars! "fe80::3")) (ip6 (chars! "ffff:ffff:ffff:ffff:ffff:ffff:ffff:fffe"))) = .ok net ∧
    (.ok net.baseAddr) = Exec.ok (ip6 (chars! "fe80::2")) ∧
    (.ok net.subnetMask) = Exec.ok (ip6 (chars! "ffff:ffff:ffff:ffff:ffff:ffff:ffff:fffe")) ∧
    (.ok net.cidrPrefix) = Exec.ok (some 127) ∧
    (.ok net.ciscoWildcard) = Exec.ok (ip6 (chars! "::1")) ∧
    (net.firstHostAddr .checked) = Exec.ok none ∧
    net.broadcastAddr = Exec.ok (some (ip6 (chars! "fe80::3"))) ∧
    (net.lastHostAddr .checked) = Exec.ok none ∧
    (net.nextSubnetBaseAddr .checked) = Exec.ok (some (ip6 (chars! "fe80::4"))) ∧
    net.contains net.baseAddr = true ∧
    containsE net net.broadcastAddr = .ok true ∧
    containsE net (net.nextSubnetBaseAddr .checked) = .ok false ∧
    (.ok net.addressCount) = Exec.ok (2) ∧
    (.ok net.hostCount) = Exec.ok (0)) (holdsOf (by decide +kernel))

-- lines 500-519
example : ∃ net : Net V6, Exec.ok (Net.newWithMask (ip6 (chars! "::")) (ip6 (chars! "::"))) = .ok net ∧
    (.ok net.baseAddr) = Exec.ok (ip6 (chars! "::")) ∧
    (.ok net.subnetMask) = Exec.ok (ip6 (chars! "::")) ∧
    (.ok net.cidrPrefix) = Exec.ok (some 0) ∧
    (.ok net.ciscoWildcard) = Exec.ok (ip6 (chars! "ffff:ffff:ffff:ffff:ffff:ffff:ffff:ffff")) ∧
    (net.firstHostAddr .checked) = Exec.ok (some (ip6 (chars! "::1"))) ∧
    net.broadcastAddr = Exec.ok (some (ip6 (chars! "ffff:ffff:ffff:ffff:ffff:ffff:ffff:ffff"))) ∧
    (net.lastHostAddr .checked) = Exec.ok (some (ip6 (chars! "ffff:ffff:ffff:ffff:ffff:ffff:ffff:fffe"))) ∧
    (net.nextSubnetBaseAddr .checked) = Exec.ok none ∧
    net.contains net.baseAddr = true ∧
    containsE net (net.firstHostAddr .checked) = .ok true ∧
    net.contains (ip6 (chars! "1234:3141:1234:5926:5358:1234:9793:1234")) = true ∧
    containsE net (net.lastHostAddr .checked) = .ok true ∧
    containsE net net.broadcastAddr = .ok true ∧
    (.ok net.addressCount) = Exec.ok 340282366920938463463374607431768211456 ∧
    (.ok net.hostCount) = Exec.ok 340282366920938463463374607431768211454 :=
  evalV6 (fun _i : IpAddr V6 => ∃ net : Net V6, Exec.ok (Net.newWithMask (ip6 (chars! "::")) (ip6 (chars! "::"))) = .ok net ∧
    (.ok net.baseAddr) = Exec.ok (ip6 (chars! "::")) ∧
    (.ok net.subnetMask) = Exec.ok (ip6 (chars! "::")) ∧
    (.ok net.cidrPrefix) = Exec.ok (some 0) ∧
    (.ok net.ciscoWildcard) = Exec.ok (ip6 (chars! "ffff:ffff:ffff:ffff:ffff:ffff:ffff:ffff")) ∧
    (net.firstHostAddr .checked) = Exec.ok (some (ip6 (chars! "::1"))) ∧
    net.broadcastAddr = Exec.ok (some (ip6 (chars! "ffff:ffff:ffff:ffff:ffff:ffff:ffff:ffff"))) ∧
    (net.lastHostAddr .checked) = Exec.ok (some (ip6 (chars! "ffff:ffff:ffff:ffff:ffff:ffff:ffff:fffe"))) ∧
    (net.nextSubnetBaseAddr .checked) = Exec.ok none ∧
    net.contains net.baseAddr = true ∧
    containsE net (net.firstHostAddr .checked) = .ok true ∧
    net.contains (ip6 (chars! "1234:3141:1234:5926:5358:1234:9793:1234")) = true ∧
    containsE net (net.lastHostAddr .checked) = .ok true ∧
    containsE net net.broadcastAddr = .ok true ∧
    (.ok net.addressCount) = Exec.ok 340282366920938463463374607431768211456 ∧
    (.ok net.hostCount) = Exec.ok 340282366920938463463374607431768211454) (holdsOf (by decide +kernel))

-- lines 525-531
example : ∃ net : Net V4, Net.newWithPrefix (ip4 (chars! "127.0.0.1")) 8 = .ok net ∧
    (.ok net.baseAddr) = Exec.ok (ip4 (chars! "127.0.0.0")) ∧
    (.ok net.subnetMask) = Exec.ok (ip4 (chars! "255.0.0.0")) ∧
    (.ok net.cidrPrefix) = Exec.ok (some 8) :=
  holdsOf (by decide +kernel)

-- lines 533-539
example : ∃ net : Net V4, Net.newWithPrefix (ip4 (chars! "1.2.3.4")) 24 = .ok net ∧
    (.ok net.baseAddr) = Exec.ok (ip4 (chars! "1.2.3.0")) ∧
    (.ok net.subnetMask) = Exec.ok (ip4 (chars! "255.255.255.0")) ∧
    (.ok net.cidrPrefix) = Exec.ok (some 24) :=
  holdsOf (by decide +kernel)

-- lines 544-550
example : ∃ net : Net V6, Net.newWithPrefix (ip6 (chars! "feba::")) 10 = .ok net ∧
    (.ok net.baseAddr) = Exec.ok (ip6 (chars! "fe80::")) ∧
    (.ok net.subnetMask) = Exec.ok (ip6 (chars! "ffc0::")) ∧
    (.ok net.cidrPrefix) = Exec.ok (some 10) :=
  evalV6 (fun _i : IpAddr V6 => ∃ net : Net V6, Net.newWithPrefix (ip6 (chars! "feba::")) 10 = .ok net ∧
    (.ok net.baseAddr) = Exec.ok (ip6 (chars! "fe80::")) ∧
    (.ok net.subnetMask) = Exec.ok (ip6 (chars! "ffc0::")) ∧
    (.ok net.cidrPrefix) = Exec.ok (some 10)) (holdsOf (by decide +kernel))

-- lines 556
example : (Net.newWithMaskStrict (ip4 (chars! "127.0.0.0")) (ip4 (chars! "255.0.0.0"))).isSome = true :=
  by decide +kernel

-- lines 563
example : (Net.newWithMaskStrict (ip4 (chars! "127.0.0.1")) (ip4 (chars! "255.0.0.0"))).isNone = true :=
  by decide +kernel

-- lines 572
example : (Net.newWithMaskStrict (ip4 (chars! "127.0.0.0")) (ip4 (chars! "255.0.255.0"))).isSome = true :=
  by decide +kernel

-- lines 579
example : (Net.newWithMaskStrict (ip4 (chars! "127.0.0.1")) (ip4 (chars! "255.0.255.0"))).isNone = true :=
  by decide +kernel

-- lines 588
example : (Net.newWithMaskStrict (ip4 (chars! "127.0.0.1")) (ip4 (chars! "255.255.255.255"))).isSome = true :=
  by decide +kernel

-- lines 597
example : (Net.newWithMaskStrict (ip4 (chars! "127.0.0.0")) (ip4 (chars! "255.255.255.254"))).isSome = true :=
  by decide +kernel

-- lines 604
example : (Net.newWithMaskStrict (ip4 (chars! "127.0.0.1")) (ip4 (chars! "255.255.255.254"))).isNone = true :=
  by decide +kernel

-- lines 613
example : (Net.newWithMaskStrict (ip4 (chars! "0.0.0.0")) (ip4 (chars! "0.0.0.0"))).isSome = true :=
  by decide +kernel

-- lines 620
example : (Net.newWithMaskStrict (ip4 (chars! "5.0.0.0")) (ip4 (chars! "0.0.0.0"))).isNone = true :=
  by decide +kernel

-- lines 632
example : (Net.newWithMaskStrict (ip6 (chars! "fe80::")) (ip6 (chars! "ffc0::"))).isSome = true :=
  by decide +kernel

-- lines 639
example : (Net.newWithMaskStrict (ip6 (chars! "fe80::1")) (ip6 (chars! "ffc0::"))).isNone = true :=
  by decide +kernel

-- lines 648
example : (Net.newWithMaskStrict (ip6 (chars! "1234:0:1234::1234:0:1234")) (ip6 (chars! "ffff:0000:ffff:0000:0000:ffff:0000:ffff"))).isSome = true :=
  by decide +kernel

-- lines 655
example : (Net.newWithMaskStrict (ip6 (chars! "1234:1234:1234:1234:1234:1234:1234:1234")) (ip6 (chars! "ffff:0000:ffff:0000:0000:ffff:0000:ffff"))).isNone = true :=
  by decide +kernel

-- lines 664
example : (Net.newWithMaskStrict (ip6 (chars! "::1")) (ip6 (chars! "ffff:ffff:ffff:ffff:ffff:ffff:ffff:ffff"))).isSome = true :=
  by decide +kernel

-- lines 673
example : (Net.newWithMaskStrict (ip6 (chars! "fe80::2")) (ip6 (chars! "ffff:ffff:ffff:ffff:ffff:ffff:ffff:fffe"))).isSome = true :=
  by decide +kernel

-- lines 680
example : (Net.newWithMaskStrict (ip6 (chars! "fe80::3")) (ip6 (chars! "ffff:ffff:ffff:ffff:ffff:ffff:ffff:fffe"))).isNone = true :=
  by decide +kernel

-- lines 689
example : (Net.newWithMaskStrict (ip6 (chars! "::")) (ip6 (chars! "::"))).isSome = true :=
  by decide +kernel

-- lines 696
example : (Net.newWithMaskStrict (ip6 (chars! "1::")) (ip6 (chars! "::"))).isNone = true :=
  by decide +kernel

-- lines 707-713
example : ∃ net : Net V4, Net.newWithPrefix (ip4 (chars! "127.0.0.1")) 8 = .ok net ∧
    (.ok net.baseAddr) = Exec.ok (ip4 (chars! "127.0.0.0")) ∧
    (.ok net.subnetMask) = Exec.ok (ip4 (chars! "255.0.0.0")) ∧
    (.ok net.cidrPrefix) = Exec.ok (some 8) :=
  holdsOf (by decide +kernel)

-- lines 715-721
example : ∃ net : Net V4, Net.newWithPrefix (ip4 (chars! "1.2.3.4")) 24 = .ok net ∧
    (.ok net.baseAddr) = Exec.ok (ip4 (chars! "1.2.3.0")) ∧
    (.ok net.subnetMask) = Exec.ok (ip4 (chars! "255.255.255.0")) ∧
    (.ok net.cidrPrefix) = Exec.ok (some 24) :=
  holdsOf (by decide +kernel)

-- lines 726-732
example : ∃ net : Net V6, Net.newWithPrefix (ip6 (chars! "feba::")) 10 = .ok net ∧
    (.ok net.baseAddr) = Exec.ok (ip6 (chars! "fe80::")) ∧
    (.ok net.subnetMask) = Exec.ok (ip6 (chars! "ffc0::")) ∧
    (.ok net.cidrPrefix) = Exec.ok (some 10) :=
  evalV6 (fun _i : IpAddr V6 => ∃ net : Net V6, Net.newWithPrefix (ip6 (chars! "feba::")) 10 = .ok net ∧
    (.ok net.baseAddr) = Exec.ok (ip6 (chars! "fe80::")) ∧
    (.ok net.subnetMask) = Exec.ok (ip6 (chars! "ffc0::")) ∧
    (.ok net.cidrPrefix) = Exec.ok (some 10)) (holdsOf (by decide +kernel))

end Ripcalc.Conformance
