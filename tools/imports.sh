#!/bin/sh
# Regenerates lean/Verif.lean: one import per module.
cd "$(dirname "$0")/../lean" || exit 1
for d in Py Model Spec Lemmas Props Tests; do
  find Verif/$d -name '*.lean' | LC_ALL=C sort
done | sed 's/\.lean$//; s#/#.#g; s/^/import /' > Verif.lean
