#!/bin/sh
# Regenerates lean/Verif.lean: one import per property module.
cd "$(dirname "$0")/../lean" && ls Verif/Props/*.lean | sed 's/\.lean$//; s#/#.#g; s/^/import /' > Verif.lean
