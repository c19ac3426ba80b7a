lean/.lake/
lean/build/
*.olean
