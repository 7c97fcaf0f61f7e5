#!/bin/sh
# regenerate lean/Verif.lean from the modules present
cd "$(dirname "$0")/../lean"
find Verif -name '*.lean' | sed 's/\.lean$//; s#/#.#g' | sort | sed 's/^/import /' > Verif.lean
