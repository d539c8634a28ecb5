#!/bin/bash
# prints every property theorem whose axioms go beyond propext, Classical.choice, Quot.sound
cd "$(dirname "$0")/.." && python3 tools/gen.py >/dev/null && cd lean && lake build >/dev/null && lake env lean /tmp/axioms.lean | tr '\n' ' ' | sed "s/'Verif/\n'Verif/g" | grep -v -E "depends on axioms: \[(propext|Classical.choice|Quot.sound|, )*\]|does not depend" | grep Verif
echo done
