#!/bin/bash
# build one module, short error report
cd /verif/lean; lake build "$1" > /tmp/lb.out 2>&1; rc=$?
f=$(echo "$1" | tr . /)
grep -v '^info' /tmp/lb.out | grep -A${2:-14} -E "error|warning: $f" | cut -c1-400 | head -${3:-90}
echo "rc=$rc"
