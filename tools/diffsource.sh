#!/bin/sh
# Compare the texts in lean/Verif/Rust/Source.lean with /repo/src: regenerate and diff.
set -e
cd "$(dirname "$0")/.."
cp lean/Verif/Rust/Source.lean /tmp/Source.before
python3 tools/gen/source.py
cmp /tmp/Source.before lean/Verif/Rust/Source.lean && echo identical
