#!/bin/sh
# Regenerates lean/Verif.lean from the modules present under lean/Verif.
cd "$(dirname "$0")/../lean" || exit 1
find Verif -name '*.lean' | LC_ALL=C sort | sed 's|/|.|g; s|\.lean$||; s|^|import |' > Verif.lean
