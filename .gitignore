.lake/
lean/.lake/
lean/build/
*.olean
lake-manifest.json
