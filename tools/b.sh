#!/bin/sh
# build, short output
cd /verif/lean && lake build 2>&1 | grep -v '^trace' | cut -c1-600 | head -${1:-60}
