#!/bin/bash
# regenerate Verif.lean, properties, manifest; build; commit
set -e
cd /verif
(cd lean && find Verif/Examples Verif/Proofs Verif/Props -name '*.lean' | sort | sed 's/\.lean$//; s/\//./g; s/^/import /' > Verif.lean)
python3 tools/props.py; python3 tools/manifest.py
grep -rnE '\bsorry\b|#exit|#guard_msgs|native_decide|bv_decide' lean/Verif && exit 1
(set -o pipefail; cd lean && lake build 2>&1 | tail -5)
git add -A && git commit -qm "$1" && git log --oneline | head -1
